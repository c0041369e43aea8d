import Verif.Proofs.PrecSpine
/-! Meaning of the abstract states of the precedence analysis. -/
namespace Verif.PI
open Core Spec Interp

variable {U : Unicode} {toks : List Token} {p q : Nat} {ps : PS}

/-- Precedence of the token at an offset. -/
abbrev gp (U : Unicode) (toks : List Token) (ps : PS) (i : Nat) : Out Nat := getPrecedence U toks ps i

/-- All nodes of a tree are grouped by precedence. -/
def Good (U : Unicode) (n : Node) : Prop := ∀ m ∈ nodes n, ByPrecedence U m

/-- The same for all nodes of a value. -/
def GoodVal (U : Unicode) : Val → Prop
  | .node n => Good U n
  | .vec ns => ∀ n ∈ ns, Good U n
  | _ => True

/-- Facts about the ends of a node. -/
structure Facts (U : Unicode) (toks : List Token) (p q : Nat) (ps : PS) (v : NV) (n : Node) : Prop where
  ltp : v.ltp = true → LtB U n p
  ltq : v.ltq = true → LtB U n q
  ltc : ∀ c, v.ltc = some c → LtB U n c
  so : v.so = true → SO U n
  cl : v.cl = true → Cl U n
  tn : v.tn = true → ∀ c, gp U toks ps 1 = .ok c → SpB U n c
  tc : v.tc = true → ∀ c, gp U toks ps 0 = .ok c → SpB U n c
  tq : v.tq = true → SpB U n q
  pn : v.pn = true → ∀ c, gp U toks ps 1 = .ok c → SO U n ∨ p ≤ c
  qn : v.qn = true → ∀ c, gp U toks ps 1 = .ok c → SO U n ∨ q ≤ c
  cn : ∀ c, gp U toks ps 1 = .ok c → SO U n ∨ v.cn ≤ c

/-- The token of a node. -/
def TokIn (U : Unicode) (toks : List Token) (ps : PS) (cur : Bool) (m : AI.Mask) (n : Node) : Prop :=
  ∃ t, n.tok = some t ∧ (cur = true → getToken toks ps 0 = .ok t) ∧
    (cur = false → m.testBit (AI.cls U t) = true)

/-- Types of operators. -/
def Cls.Has : Cls → NodeType → Prop
  | .post, ty => ty = .CallingFunction ∨ ty = .AccessOperator ∨ ty = .DotOperator ∨ ty = .FunctionChain
  | .bin, ty => ty = .BinaryOperator ∨ ty = .IsDistinctFromOperator
  | .btw, ty => ty = .BetweenOperator
  | .inn, ty => ty = .InOperator

/-- Meaning of node values. -/
def KindOk (U : Unicode) (toks : List Token) (p q : Nat) (ps : PS) (v : NV) (n : Node) : Kind → Prop
  | .any => Facts U toks p q ps v n
  | .nonop => nonopTy n.ty = true ∧ Facts U toks p q ps v n
  | .preN cur m => nonopTy n.ty = true ∧ childrenAt n .k_right = [] ∧ TokIn U toks ps cur m n ∧
      Facts U toks p q ps v n
  | .preU cur m => n.ty = .UnaryOperator ∧ childrenAt n .k_right = [] ∧ TokIn U toks ps cur m n ∧
      Facts U toks p q ps v n
  | .un => (nonopTy n.ty = true ∨ n.ty = .UnaryOperator) ∧ ByPrecedence U (n.setType .UnaryOperator) ∧
      Facts U toks p q ps v (n.setType .UnaryOperator)
  | .op c nr => c.Has n.ty ∧ opPrec U n = some q ∧
      (nr = true → (c = .bin → childrenAt n .k_right = []) ∧ (c = .btw → childrenAt n .k_right_max = [])) ∧
      Facts U toks p q ps v n

/-- Meaning of node values. -/
def NVOk (U : Unicode) (toks : List Token) (p q : Nat) (ps : PS) (v : NV) (n : Node) : Prop :=
  KindOk U toks p q ps v n v.kind

/-- Meaning of values; wrong kinds of values are of no interest, since they make the program panic. -/
def Γ (U : Unicode) (toks : List Token) (p q : Nat) (ps : PS) : PV → Val → Prop
  | .node v, .node n => NVOk U toks p q ps v n
  | .bool b, .bool b' => b' = b
  | .vec1, .vec ns => ns ≠ []
  | .natc c, .nat n => n = c
  | .natp, .nat n => n = p
  | .natq, .nat n => n = q
  | .natle, .nat n => n ≤ usizeMax
  | _, _ => True

/-- Meaning of states. -/
structure γ (U : Unicode) (toks : List Token) (a : PState) (p q : Nat) (s : St) : Prop where
  good : ∀ x, GoodVal U (s.env x)
  hp : p ≤ usizeMax
  hq : q ≤ usizeMax
  m0 : ∀ t, getToken toks s.ps 0 = .ok t → a.t0.testBit (AI.cls U t) = true
  m1 : ∀ t, getToken toks s.ps 1 = .ok t → a.t1.testBit (AI.cls U t) = true
  np : a.np = true → gp U toks s.ps 1 = .ok q
  cp : a.cp = true → gp U toks s.ps 0 = .ok q
  qlt : a.qlt = true → q < p
  clt : a.clt = true → ∀ c, gp U toks s.ps 0 = .ok c → c < p
  qc : ∀ c, a.qc = some c → q = c
  vars : ∀ x, Γ U toks p q s.ps (look x a.vars) (s.env x)

theorem SpB.of_so {n : Node} {b : Nat} (h : SO U n) : SpB U n b := .inl h
theorem SpB.of_cl {n : Node} {b : Nat} (h : Cl U n) : SpB U n b := .inr (h.spA b)

section
variable {v w : NV} {n : Node} (h : Facts U toks p q ps v n)
include h

theorem Facts.ltP (e : v.ltP = true) : LtB U n p := by
  unfold NV.ltP ltcLe at e
  rcases hc : v.ltc with _ | c
  · rw [hc] at e; simp at e; exact h.ltp e
  · rw [hc] at e
    simp only [Bool.or_eq_true, Nat.ble_eq] at e
    rcases e with e | e
    · exact h.ltp e
    · exact (h.ltc c hc).mono (by omega)

theorem Facts.ltQ (e : v.ltQ = true) : LtB U n q := by
  unfold NV.ltQ ltcLe at e
  rcases hc : v.ltc with _ | c
  · rw [hc] at e; simp at e; exact h.ltq e
  · rw [hc] at e
    simp only [Bool.or_eq_true, Nat.ble_eq] at e
    rcases e with e | e
    · exact h.ltq e
    · exact (h.ltc c hc).mono (by omega)

theorem Facts.tN (e : v.tN = true) : ∀ c, gp U toks ps 1 = .ok c → SpB U n c := by
  unfold NV.tN at e
  simp only [Bool.or_eq_true] at e
  intro c hc
  rcases e with (e | e) | e
  · exact h.tn e c hc
  · exact .of_cl (h.cl e)
  · exact .of_so (h.so e)

theorem Facts.tC (e : v.tC = true) : ∀ c, gp U toks ps 0 = .ok c → SpB U n c := by
  unfold NV.tC at e
  simp only [Bool.or_eq_true] at e
  intro c hc
  rcases e with (e | e) | e
  · exact h.tc e c hc
  · exact .of_cl (h.cl e)
  · exact .of_so (h.so e)

theorem Facts.tQ (e : v.tQ = true) : SpB U n q := by
  unfold NV.tQ at e
  simp only [Bool.or_eq_true] at e
  rcases e with (e | e) | e
  · exact h.tq e
  · exact .of_cl (h.cl e)
  · exact .of_so (h.so e)

theorem Facts.ltcLe {c : Nat} (e : ltcLe v.ltc (some c) = true) : LtB U n c := by
  unfold PI.ltcLe at e
  rcases hc : v.ltc with _ | d
  · rw [hc] at e; simp at e
  · rw [hc] at e
    simp only [Nat.ble_eq] at e
    exact (h.ltc d hc).mono e

end

theorem imp_true {a b : Bool} (h : imp a b = true) (ha : a = true) : b = true := by
  unfold imp at h; subst ha; simpa using h

theorem Facts.le {v w : NV} {n : Node} (h : Facts U toks p q ps v n) (e : v.leF w = true) :
    Facts U toks p q ps w n := by
  unfold NV.leF at e
  simp only [Bool.and_eq_true, and_assoc] at e
  obtain ⟨e1, e2, e3, e4, e5, e6, e7, e8, e9, e10, e11⟩ := e
  refine ⟨fun i => h.ltP (imp_true e1 i), fun i => h.ltQ (imp_true e2 i), ?_, fun i => h.so (imp_true e4 i),
    fun i => h.cl (imp_true e5 i), fun i => h.tN (imp_true e6 i), fun i => h.tC (imp_true e7 i),
    fun i => h.tQ (imp_true e8 i), ?_, ?_, ?_⟩
  · intro c hc
    rw [hc] at e3
    exact h.ltcLe e3
  · intro i c hc
    have := imp_true e9 i
    simp only [Bool.or_eq_true] at this
    rcases this with e | e
    · exact h.pn e c hc
    · exact .inl (h.so e)
  · intro i c hc
    have := imp_true e10 i
    simp only [Bool.or_eq_true] at this
    rcases this with e | e
    · exact h.qn e c hc
    · exact .inl (h.so e)
  · intro c hc
    simp only [Bool.or_eq_true, Nat.ble_eq] at e11
    rcases e11 with e | e
    · exact .inl (h.so e)
    · rcases h.cn c hc with h | h
      · exact .inl h
      · exact .inr (Nat.le_trans e h)

theorem setType_self {n : Node} {ty : NodeType} (h : n.ty = ty) : n.setType ty = n := by
  cases n; unfold Node.setType; subst h; rfl

/-- A node that might become a prefix operator. -/
theorem Facts.of_un {v : NV} {n : Node} (hn : nonopTy n.ty = true ∨ n.ty = .UnaryOperator)
    (h : Facts U toks p q ps v (n.setType .UnaryOperator))
    (h1 : v.so = false) (h2 : v.pn = false) (h3 : v.qn = false) (h4 : v.cn = 0) :
    Facts U toks p q ps v n := by
  rcases hn with hn | hn
  · have hl := fun b => ltB_none (nonop_opPrec (U := U) hn) b
    have hc := cl_nonop (U := U) hn
    refine ⟨fun _ => hl _, fun _ => hl _, fun _ _ => hl _, ?_, fun _ => hc, fun _ _ _ => .of_cl hc,
      fun _ _ _ => .of_cl hc, fun _ => .of_cl hc, ?_, ?_, ?_⟩
    · rw [h1]; intro h; cases h
    · rw [h2]; intro h; cases h
    · rw [h3]; intro h; cases h
    · intro c _; right; omega
  · rwa [setType_self hn] at h

theorem KindOk.facts {v : NV} {n : Node} {k : Kind} (h : KindOk U toks p q ps v n k) (hk : k ≠ .un) :
    Facts U toks p q ps v n := by
  cases k with
  | any => exact h
  | nonop => exact h.2
  | preN => exact h.2.2.2
  | preU => exact h.2.2.2
  | un => exact absurd rfl hk
  | op => exact h.2.2.2

theorem NVOk.le {v w : NV} {n : Node} (h : NVOk U toks p q ps v n) (e : v.le w = true) :
    NVOk U toks p q ps w n := by
  unfold NV.le at e
  simp only [Bool.and_eq_true, Bool.or_eq_true] at e
  obtain ⟨e1, e2⟩ := e
  unfold NVOk at h ⊢
  generalize hk : v.kind = k at h e2
  generalize hk' : w.kind = k' at e2 ⊢
  rcases e2 with e2 | e2
  · cases k <;> cases k' <;> simp only [Kind.le, Bool.and_eq_true, Bool.or_eq_true, beq_iff_eq, decide_eq_true_eq,
      Bool.false_eq_true] at e2
    · exact Facts.le h e1
    · exact h.2.le e1
    · exact ⟨h.1, h.2.le e1⟩
    · exact h.2.2.2.le e1
    · exact ⟨h.1, h.2.2.2.le e1⟩
    · obtain ⟨rfl, e3⟩ := e2
      obtain ⟨h1, h2, ⟨t, h3, h4, h5⟩, h6⟩ := h
      refine ⟨h1, h2, ⟨t, h3, h4, ?_⟩, h6.le e1⟩
      rintro rfl
      rcases e3 with e3 | e3
      · cases e3
      · exact AI.Mask.le_has e3 (h5 rfl)
    · exact h.2.2.2.le e1
    · obtain ⟨rfl, e3⟩ := e2
      obtain ⟨h1, h2, ⟨t, h3, h4, h5⟩, h6⟩ := h
      refine ⟨h1, h2, ⟨t, h3, h4, ?_⟩, h6.le e1⟩
      rintro rfl
      rcases e3 with e3 | e3
      · cases e3
      · exact AI.Mask.le_has e3 (h5 rfl)
    · exact ⟨h.1, h.2.1, h.2.2.le e1⟩
    · exact h.2.2.2.le e1
    · obtain ⟨rfl, e3⟩ := e2
      exact ⟨h.1, h.2.1, fun i => h.2.2.1 (imp_true e3 i), h.2.2.2.le e1⟩
  · simp only [decide_eq_true_eq, Bool.not_eq_true', and_assoc] at e2
    obtain ⟨rfl, rfl, e3, e4, e5, e6⟩ := e2
    exact Facts.of_un h.1 (h.2.2.le e1) e3 e4 e5 (Nat.eq_of_beq_eq_true e6)

theorem Γ.le {a b : PV} {x : Val} (hp : p ≤ usizeMax) (hq : q ≤ usizeMax) (h : Γ U toks p q ps a x)
    (e : a.le b = true) : Γ U toks p q ps b x := by
  cases a <;> cases b <;> simp only [PV.le, beq_iff_eq, Bool.false_eq_true, Nat.ble_eq] at e <;>
    cases x <;> try trivial
  · exact NVOk.le h e
  · subst e; exact h
  · have := Nat.eq_of_beq_eq_true e
    subst this; exact h
  · next c n => have h' : n = c := h; show n ≤ usizeMax; omega
  · next n => have h' : n = p := h; show n ≤ usizeMax; omega
  · next n => have h' : n = q := h; show n ≤ usizeMax; omega

theorem look_mem {x : Var} {l : List (Var × PV)} : look x l = .top ∨ (x, look x l) ∈ l := by
  induction l with
  | nil => left; rfl
  | cons e l ih =>
    obtain ⟨y, v⟩ := e
    simp only [look]
    split
    · next h =>
      have := Nat.eq_of_beq_eq_true h
      subst this
      right; simp
    · rcases ih with h | h
      · exact .inl h
      · exact .inr (List.mem_cons_of_mem _ h)

theorem γ.le {a b : PState} {s : St} (h : γ U toks a p q s) (e : a.le b = true) : γ U toks b p q s := by
  unfold PState.le at e
  simp only [Bool.and_eq_true, and_assoc] at e
  obtain ⟨e1, e2, e3, e4, e5, e6, e7, e8⟩ := e
  refine ⟨h.good, h.hp, h.hq, fun t ht => AI.Mask.le_has e1 (h.m0 t ht), fun t ht => AI.Mask.le_has e2 (h.m1 t ht),
    fun i => h.np (imp_true e3 i), fun i => h.cp (imp_true e4 i), fun i => h.qlt (imp_true e5 i),
    fun i => h.clt (imp_true e6 i), ?_, ?_⟩
  · intro c hc
    rw [hc] at e7
    simp only [decide_eq_true_eq] at e7
    exact h.qc c e7
  · intro x
    rcases look_mem (x := x) (l := b.vars) with hx | hx
    · rw [hx]; cases s.env x <;> trivial
    · unfold varsLe at e8
      have := List.all_eq_true.1 e8 _ hx
      exact (h.vars x).le h.hp h.hq this

/-- A reachable state is described. -/
def OOk (U : Unicode) (toks : List Token) (o : O) (p : Nat) (s : St) : Prop :=
  ∃ a, o = some a ∧ ∃ q, γ U toks a p q s

theorem join_left {a b c : O} {s : St} (h : OOk U toks a p s) (e : join a b = .ok c) : OOk U toks c p s := by
  obtain ⟨a, rfl, q, hg⟩ := h
  cases b with
  | none => simp only [join, Except.ok.injEq] at e; subst e; exact ⟨a, rfl, q, hg⟩
  | some b =>
    simp only [join] at e
    split at e
    · next h' =>
      simp only [Bool.and_eq_true] at h'
      cases e
      exact ⟨_, rfl, q, hg.le h'.1⟩
    · cases e

theorem join_right {a b c : O} {s : St} (h : OOk U toks b p s) (e : join a b = .ok c) : OOk U toks c p s := by
  obtain ⟨b, rfl, q, hg⟩ := h
  cases a with
  | none => simp only [join, Except.ok.injEq] at e; subst e; exact ⟨b, rfl, q, hg⟩
  | some a =>
    simp only [join] at e
    split at e
    · next h' =>
      simp only [Bool.and_eq_true] at h'
      cases e
      exact ⟨_, rfl, q, hg.le h'.2⟩
    · cases e

/-! ### Changing the position or `q` -/

theorem look_mapNV (f : NV → NV) (x : Var) (l : List (Var × PV)) :
    look x (mapNV f l) = match look x l with | .node n => .node (f n) | v => v := by
  induction l with
  | nil => rfl
  | cons e l ih =>
    obtain ⟨y, v⟩ := e
    simp only [mapNV, look]
    split
    · rfl
    · exact ih

theorem look_dropNat (x : Var) (l : List (Var × PV)) :
    look x (dropNat l) = match look x l with | .natq => .natle | v => v := by
  induction l with
  | nil => rfl
  | cons e l ih =>
    obtain ⟨y, v⟩ := e
    simp only [dropNat, look]
    split
    · rfl
    · exact ih

/-- The variables after a change of all nodes. -/
theorem mapNV_ok {f : NV → NV} {p q : Nat} {ps ps' : PS} {l : List (Var × PV)} {env : Env}
    (h : ∀ x, Γ U toks p q ps (look x l) (env x))
    (hf : ∀ v n, NVOk U toks p q ps v n → NVOk U toks p q ps' (f v) n) :
    ∀ x, Γ U toks p q ps' (look x (mapNV f l)) (env x) := by
  intro x
  have h1 := h x
  rw [look_mapNV]
  generalize look x l = u at h1
  generalize env x = y at h1
  cases u <;> cases y <;> try trivial
  exact hf _ _ h1

theorem mapNVq_ok {f : NV → NV} {p q q' : Nat} {ps : PS} {l : List (Var × PV)} {env : Env} (hq : q ≤ usizeMax)
    (h : ∀ x, Γ U toks p q ps (look x l) (env x))
    (hf : ∀ v n, NVOk U toks p q ps v n → NVOk U toks p q' ps (f v) n) :
    ∀ x, Γ U toks p q' ps (look x (dropNat (mapNV f l))) (env x) := by
  intro x
  have h1 := h x
  rw [look_dropNat, look_mapNV]
  generalize look x l = u at h1
  generalize env x = y at h1
  cases u <;> cases y <;> try trivial
  · exact hf _ _ h1
  · next n => have h' : n = q := h1; show n ≤ usizeMax; omega

theorem KindOk.leave {v w : NV} {n : Node} {k : Kind} {ps ps' : PS} {m : AI.Mask}
    (hm : ∀ t, getToken toks ps 0 = .ok t → m.testBit (AI.cls U t) = true)
    (h : KindOk U toks p q ps v n k) (hf : ∀ n, Facts U toks p q ps v n → Facts U toks p q ps' w n) :
    KindOk U toks p q ps' w n (k.leave m) := by
  have key : ∀ cur m', TokIn U toks ps cur m' n →
      TokIn U toks ps' false (if cur then m else m') n := by
    rintro cur m' ⟨t, h1, h2, h3⟩
    refine ⟨t, h1, (by intro h; cases h), fun _ => ?_⟩
    cases cur with
    | true => exact hm t (h2 rfl)
    | false => exact h3 rfl
  cases k with
  | any => exact hf _ h
  | nonop => exact ⟨h.1, hf _ h.2⟩
  | preN cur m' =>
    obtain ⟨h1, h2, h3, h4⟩ := h
    have := key _ _ h3
    cases cur <;> exact ⟨h1, h2, this, hf _ h4⟩
  | preU cur m' =>
    obtain ⟨h1, h2, h3, h4⟩ := h
    have := key _ _ h3
    cases cur <;> exact ⟨h1, h2, this, hf _ h4⟩
  | un => exact ⟨h.1, h.2.1, hf _ h.2.2⟩
  | op => exact ⟨h.1, h.2.1, h.2.2.1, hf _ h.2.2.2⟩

theorem NVOk.next {v : NV} {n : Node} {ps ps' : PS} {m : AI.Mask} (hn : nextToken toks ps = .ok ps')
    (hm : ∀ t, getToken toks ps 0 = .ok t → m.testBit (AI.cls U t) = true)
    (h : NVOk U toks p q ps v n) : NVOk U toks p q ps' (v.next m) n := by
  refine KindOk.leave hm h ?_
  intro n h
  refine ⟨h.ltp, h.ltq, h.ltc, h.so, h.cl, (by intro h; cases h), ?_, h.tq, (by intro h; cases h),
    (by intro h; cases h), fun _ _ => .inr (Nat.zero_le _)⟩
  intro i c hc
  refine h.tn i c ?_
  rwa [gp, next_prec hn] at hc

theorem NVOk.moved {v : NV} {n : Node} {ps ps' : PS} {m : AI.Mask}
    (hm : ∀ t, getToken toks ps 0 = .ok t → m.testBit (AI.cls U t) = true)
    (h : NVOk U toks p q ps v n) : NVOk U toks p q ps' (v.moved m) n := by
  refine KindOk.leave hm h ?_
  intro n h
  exact ⟨h.ltp, h.ltq, h.ltc, h.so, h.cl, (by intro h; cases h), (by intro h; cases h), h.tq,
    (by intro h; cases h), (by intro h; cases h), fun _ _ => .inr (Nat.zero_le _)⟩

theorem KindOk.dropQ {v w : NV} {n : Node} {k : Kind} {q' : Nat}
    (h : KindOk U toks p q ps v n k) (hf : ∀ n, Facts U toks p q ps v n → Facts U toks p q' ps w n) :
    KindOk U toks p q' ps w n k.dropQ := by
  cases k with
  | any => exact hf _ h
  | nonop => exact ⟨h.1, hf _ h.2⟩
  | preN cur m' => exact ⟨h.1, h.2.1, h.2.2.1, hf _ h.2.2.2⟩
  | preU cur m' => exact ⟨h.1, h.2.1, h.2.2.1, hf _ h.2.2.2⟩
  | un => exact ⟨h.1, h.2.1, hf _ h.2.2⟩
  | op => exact hf _ h.2.2.2

theorem NVOk.bindNext {v : NV} {n : Node} {q' : Nat} (hq' : gp U toks ps 1 = .ok q')
    (h : NVOk U toks p q ps v n) : NVOk U toks p q' ps v.bindNext n := by
  refine KindOk.dropQ h ?_
  intro n h
  exact ⟨h.ltp, (by intro h; cases h), h.ltc, h.so, h.cl, h.tn, h.tc, fun i => h.tn i _ hq', h.pn,
    (by intro h; cases h), h.cn⟩

theorem NVOk.bindCur {v : NV} {n : Node} {q' : Nat} (hq' : gp U toks ps 0 = .ok q')
    (h : NVOk U toks p q ps v n) : NVOk U toks p q' ps v.bindCur n := by
  refine KindOk.dropQ h ?_
  intro n h
  exact ⟨h.ltp, (by intro h; cases h), h.ltc, h.so, h.cl, h.tn, h.tc, fun i => h.tc i _ hq', h.pn,
    (by intro h; cases h), h.cn⟩

theorem KindOk.mono {v w : NV} {n : Node} {k : Kind} (h : KindOk U toks p q ps v n k)
    (hf : ∀ n, Facts U toks p q ps v n → Facts U toks p q ps w n) : KindOk U toks p q ps w n k := by
  cases k with
  | any => exact hf _ h
  | nonop => exact ⟨h.1, hf _ h.2⟩
  | preN cur m' => exact ⟨h.1, h.2.1, h.2.2.1, hf _ h.2.2.2⟩
  | preU cur m' => exact ⟨h.1, h.2.1, h.2.2.1, hf _ h.2.2.2⟩
  | un => exact ⟨h.1, h.2.1, hf _ h.2.2⟩
  | op => exact ⟨h.1, h.2.1, h.2.2.1, hf _ h.2.2.2⟩

theorem NVOk.setPn {v : NV} {n : Node} (hp : ∀ c, gp U toks ps 1 = .ok c → p ≤ c)
    (h : NVOk U toks p q ps v n) : NVOk U toks p q ps { v with pn := true } n :=
  KindOk.mono h fun _ h =>
    ⟨h.ltp, h.ltq, h.ltc, h.so, h.cl, h.tn, h.tc, h.tq, fun _ c hc => .inr (hp c hc), h.qn, h.cn⟩

theorem getToken_of_gp {i c : Nat} (h : gp U toks ps i = .ok c) : ∃ t, getToken toks ps i = .ok t := by
  unfold gp getPrecedence at h
  split at h <;> try cases h
  exact ⟨_, by assumption⟩

theorem sharpen_sound {i : Nat} {m : AI.Mask} {qlt : Bool} {c : Option Nat} {n : Nat} (hp : p ≤ usizeMax)
    (hq : gp U toks ps i = .ok q) (hm : ∀ t, getToken toks ps i = .ok t → m.testBit (AI.cls U t) = true)
    (hlt : qlt = true → q < p) (hc : ∀ n, c = some n → q = n) (hn : sharpen m qlt c = some n) : q = n := by
  obtain ⟨t, ht⟩ := getToken_of_gp hq
  unfold sharpen at hn
  split at hn
  · next n' hn' =>
    cases hn
    have := maskPrec_sound ht (hm t ht) hn'
    rw [gp, this] at hq
    cases hq; rfl
  · split at hn
    · next h =>
      simp only [Bool.and_eq_true] at h
      cases hn
      have := hlt h.1
      rcases gp_not ht (hm t ht) h.2 hq with h | h
      · exact h
      · omega
    · exact hc n hn

theorem γ.next {a : PState} {s : St} {ps' : PS} (h : γ U toks a p q s) (hn : nextToken toks s.ps = .ok ps') :
    γ U toks (anext a) p q { s with ps := ps' } := by
  obtain ⟨h1, h2⟩ := next_tok hn
  refine ⟨h.good, h.hp, h.hq, ?_, fun t _ => AI.testBit_TOP (AI.cls_lt U t), (by intro h; cases h), ?_, h.qlt, ?_,
    h.qc, ?_⟩
  · intro t ht
    rw [h1] at ht
    exact h.m1 t ht
  · intro i
    show getPrecedence U toks ps' 0 = _
    rw [next_prec hn]; exact h.np i
  · intro i c hc
    simp only [anext, Bool.and_eq_true] at i
    have hc' : getPrecedence U toks ps' 0 = .ok c := hc
    rw [next_prec hn] at hc'
    have hq := h.np i.1
    rw [gp, hc'] at hq
    cases hq
    exact h.qlt i.2
  · exact mapNV_ok h.vars fun v n hv => hv.next hn h.m0

theorem γ.bindNext {a : PState} {s : St} {c : Nat} (h : γ U toks a p q s) (hc : gp U toks s.ps 1 = .ok c)
    (hlt : c < p) : ∃ q', γ U toks (bindNext a) p q' s := by
  unfold PI.bindNext
  split
  · next hnp =>
    have := h.np hnp
    rw [hc] at this
    obtain rfl : c = q := by simpa using this
    refine ⟨c, h.good, h.hp, h.hq, h.m0, h.m1, h.np, h.cp, fun _ => hlt, h.clt, ?_, h.vars⟩
    intro n hn
    exact sharpen_sound h.hp hc h.m1 (fun _ => hlt) h.qc hn
  · refine ⟨c, h.good, h.hp, gp_le hc, h.m0, h.m1, fun _ => hc, (by intro h; cases h), fun _ => hlt, h.clt, ?_, ?_⟩
    · intro n hn
      exact sharpen_sound h.hp hc h.m1 (fun _ => hlt) (by simp) hn
    · exact mapNVq_ok h.hq h.vars fun v n hv => hv.bindNext hc

theorem γ.bindCur {a : PState} {s : St} {c : Nat} (h : γ U toks a p q s) (hc : gp U toks s.ps 0 = .ok c) :
    γ U toks (bindCur a) p c s ∧ (bindCur a).cp = true := by
  unfold PI.bindCur
  split
  · next hcp =>
    have := h.cp hcp
    rw [hc] at this
    cases this
    exact ⟨h, hcp⟩
  · refine ⟨⟨h.good, h.hp, gp_le hc, h.m0, h.m1, (by intro h; cases h), fun _ => hc, fun i => h.clt i c hc, h.clt,
      ?_, ?_⟩, rfl⟩
    · intro n hn
      exact sharpen_sound h.hp hc h.m0 (fun i => h.clt i c hc) (by simp) hn
    · exact mapNVq_ok h.hq h.vars fun v n hv => hv.bindCur hc

theorem and_ne_zero {a b i : Nat} (ha : a.testBit i = true) (hb : b.testBit i = true) :
    (a &&& b).testBit i = true ∧ Nat.beq (a &&& b) 0 = false := by
  have h : (a &&& b).testBit i = true := by rw [Nat.testBit_and, ha, hb]; rfl
  refine ⟨h, ?_⟩
  rw [← Bool.not_eq_true]
  intro h'
  have := Nat.eq_of_beq_eq_true h'
  rw [this] at h
  simp at h

theorem γ.refine0 {a : PState} {s : St} {m : AI.Mask} {t : Token} (h : γ U toks a p q s)
    (ht : getToken toks s.ps 0 = .ok t) (hm : m.testBit (AI.cls U t) = true) :
    OOk U toks (refine0 m a) p s := by
  obtain ⟨h1, h2⟩ := and_ne_zero (h.m0 t ht) hm
  have hm0 : ∀ t', getToken toks s.ps 0 = .ok t' → (a.t0 &&& m).testBit (AI.cls U t') = true := by
    intro t' ht'
    rw [ht] at ht'; cases ht'; exact h1
  unfold PI.refine0
  simp only [h2, Bool.false_eq_true, if_false]
  have hqc : ∀ c, (if a.cp = true then sharpen (a.t0 &&& m) a.qlt a.qc else a.qc) = some c → q = c := by
    intro c hc
    split at hc
    · next hcp => exact sharpen_sound h.hp (h.cp hcp) hm0 h.qlt h.qc hc
    · exact h.qc c hc
  refine ⟨_, rfl, q, h.good, h.hp, h.hq, hm0, h.m1, h.np, ?_, h.qlt, h.clt, hqc, h.vars⟩
  intro i
  dsimp only at i
  simp only [Bool.or_eq_true] at i
  rcases i with i | i
  · exact h.cp i
  · split at i
    · next n hn =>
      simp only [decide_eq_true_eq] at i
      rw [hqc n i]
      exact maskPrec_sound ht h1 hn
    · cases i

theorem γ.refine1 {a : PState} {s : St} {m : AI.Mask} {t : Token} (h : γ U toks a p q s)
    (ht : getToken toks s.ps 1 = .ok t) (hm : m.testBit (AI.cls U t) = true) :
    OOk U toks (refine1 m a) p s := by
  obtain ⟨h1, h2⟩ := and_ne_zero (h.m1 t ht) hm
  have hm1 : ∀ t', getToken toks s.ps 1 = .ok t' → (a.t1 &&& m).testBit (AI.cls U t') = true := by
    intro t' ht'
    rw [ht] at ht'; cases ht'; exact h1
  unfold PI.refine1
  simp only [h2, Bool.false_eq_true, if_false]
  refine ⟨_, rfl, q, h.good, h.hp, h.hq, h.m0, hm1, h.np, h.cp, h.qlt, h.clt, ?_, h.vars⟩
  intro c hc
  dsimp only at hc
  split at hc
  · next hnp => exact sharpen_sound h.hp (h.np hnp) hm1 h.qlt h.qc hc
  · exact h.qc c hc

theorem γ.refineOff {a : PState} {s : St} {m : AI.Mask} {o : Off} {t : Token} {C : Ctx} (hC : C.toks = toks)
    (h : γ U toks a p q s) (ht : offTok C s o = .ok t) (hm : m.testBit (AI.cls U t) = true) :
    OOk U toks (refineOff o m a) p s := by
  unfold PI.refineOff
  split
  · subst hC; exact h.refine0 ht hm
  · subst hC; exact h.refine1 ht hm
  · exact ⟨a, rfl, q, h⟩

/-! ### Conditions -/

/-- The outcome of a condition is described. -/
def CondOk (U : Unicode) (toks : List Token) (r : O × O) (p : Nat) (s : St) (b : Bool) : Prop :=
  OOk U toks (if b then r.1 else r.2) p s

theorem bind_ok {α β : Type} {x : Out α} {f : α → Out β} {b : β} (h : (x >>= f) = .ok b) :
    ∃ a, x = .ok a ∧ f a = .ok b := by
  cases x with
  | ok a => exact ⟨a, rfl, h⟩
  | err e => cases h
  | panic q => cases h
  | timeout => cases h

theorem assume_sound {C : Ctx} {s : St} (hU : C.U = U) (hC : C.toks = toks) : ∀ (c : Cond) (a : PState) (q : Nat)
    (r : O × O) (b : Bool), γ U toks a p q s → assume c a = .ok r → evalCond C s c = .ok b →
    CondOk U toks r p s b := by
  have both : ∀ (a : PState) (q : Nat) (r : O × O) (b : Bool), γ U toks a p q s →
      (Except.ok (some a, some a) : R (O × O)) = .ok r → CondOk U toks r p s b := by
    intro a q r b h e
    cases e
    unfold CondOk
    cases b <;> exact ⟨a, rfl, q, h⟩
  intro c
  induction c with
  | up o ks =>
    intro a q r b h e hb
    simp only [assume, Except.ok.injEq] at e
    subst e
    obtain ⟨t, ht, hb⟩ := bind_ok hb
    simp only [Out.ok.injEq] at hb
    subst hU
    cases b with
    | true => exact h.refineOff hC ht ((AI.inKws_iff _ _ _).1 hb)
    | false => exact h.refineOff hC ht (AI.not_inKws _ _ _ hb)
  | bvar x =>
    intro a q r b h e hb
    simp only [assume] at e
    simp only [evalCond] at hb
    have hv := h.vars x
    rcases hx : s.env x with _ | _ | _ | b' | _ | _ | _ <;> rw [hx] at hb hv <;> try cases hb
    split at e
    · next hl =>
      rw [hl] at hv
      cases e
      have hv' : b = true := hv
      subst hv'
      exact ⟨a, rfl, q, h⟩
    · next hl =>
      rw [hl] at hv
      cases e
      have hv' : b = false := hv
      subst hv'
      exact ⟨a, rfl, q, h⟩
    · exact both a q r b h e
  | precLt x =>
    intro a q r b h e hb
    simp only [assume] at e
    obtain ⟨c, hc, hb⟩ := bind_ok hb
    have hv := h.vars x
    split at e
    · next hl =>
      rw [hl] at hv
      cases e
      rcases hx : s.env x with _ | _ | _ | _ | n | _ | _ <;> rw [hx] at hb hv <;> try cases hb
      have hv' : n = p := hv
      subst hv'
      subst hU hC
      by_cases hlt : c < n
      · unfold CondOk
        rw [decide_eq_true hlt]
        obtain ⟨q', h'⟩ := h.bindNext hc hlt
        exact ⟨_, rfl, q', h'⟩
      · unfold CondOk
        rw [decide_eq_false hlt]
        refine ⟨_, rfl, q, h.good, h.hp, h.hq, h.m0, h.m1, h.np, h.cp, h.qlt, h.clt, h.qc, ?_⟩
        refine mapNV_ok h.vars fun v n hv => hv.setPn ?_
        intro c' hc'
        have : gp C.U C.toks s.ps 1 = .ok c := hc
        rw [hc'] at this
        cases this
        omega
    · exact both a q r b h e
  | and c d ihc ihd =>
    intro a q r b h e hb
    simp only [assume] at e
    obtain ⟨b1, hb1, hb⟩ := bind_ok hb
    split at e
    · cases e
    · next t f hc =>
      have h1 := ihc a q _ b1 h hc hb1
      cases b1 with
      | false =>
        simp only [Bool.false_eq_true, if_false, Out.ok.injEq] at hb
        subst hb
        have h1' : OOk U toks f p s := h1
        split at e
        · cases e; exact h1'
        · split at e
          · cases e
          · split at e
            · cases e
            · next j hj => cases e; exact join_left h1' hj
      | true =>
        simp only [if_true] at hb
        obtain ⟨t', rfl, q', h1'⟩ : OOk U toks t p s := h1
        dsimp only at e
        split at e
        · cases e
        · next u f' hd =>
          have h2 := ihd t' q' _ b h1' hd hb
          split at e
          · cases e
          · next j hj =>
            cases e
            cases b with
            | true => exact h2
            | false => exact join_right (a := f) h2 hj
  | or c d ihc ihd =>
    intro a q r b h e hb
    simp only [assume] at e
    obtain ⟨b1, hb1, hb⟩ := bind_ok hb
    split at e
    · cases e
    · next t f hc =>
      have h1 := ihc a q _ b1 h hc hb1
      cases b1 with
      | true =>
        simp only [if_true, Out.ok.injEq] at hb
        subst hb
        have h1' : OOk U toks t p s := h1
        split at e
        · cases e; exact h1'
        · split at e
          · cases e
          · split at e
            · cases e
            · next j hj => cases e; exact join_left h1' hj
      | false =>
        simp only [Bool.false_eq_true, if_false] at hb
        obtain ⟨t', rfl, q', h1'⟩ : OOk U toks f p s := h1
        dsimp only at e
        split at e
        · cases e
        · next u f' hd =>
          have h2 := ihd t' q' _ b h1' hd hb
          split at e
          · cases e
          · next j hj =>
            cases e
            cases b with
            | false => exact h2
            | true => exact join_right (a := t) h2 hj
  | not c ih =>
    intro a q r b h e hb
    simp only [assume] at e
    obtain ⟨b1, hb1, hb⟩ := bind_ok hb
    simp only [Out.ok.injEq] at hb
    subst hb
    split at e
    · cases e
    · next t f hc =>
      cases e
      have := ih a q _ b1 h hc hb1
      cases b1 <;> exact this
  | _ => intro a q r b h e hb; exact both a q r b h e

end Verif.PI
