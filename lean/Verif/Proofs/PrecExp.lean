import Verif.Proofs.PrecPush
/-! Soundness of the precedence analysis: right-hand sides and calls. -/
namespace Verif.PI
open Core Spec Interp

variable {U : Unicode} {toks : List Token} {p q : Nat} {ps : PS}

/-! ### Trees -/

theorem good_push {n c : Node} {k : Key} (hn : Good U n) (hc : Good U c)
    (h : ByPrecedence U (n.pushNode k c)) : Good U (n.pushNode k c) := by
  intro m hm
  rcases mem_nodes_pushNode hm with rfl | hm | hm
  · exact h
  · exact hn m hm
  · exact hc m hm

theorem good_pushVec {n : Node} {cs : List Node} {k : Key} (hn : Good U n) (hc : ∀ c ∈ cs, Good U c)
    (h : ByPrecedence U (n.pushVec k cs)) : Good U (n.pushVec k cs) := by
  intro m hm
  rcases mem_nodes_pushVec hm with rfl | hm | ⟨c, hc', hm⟩
  · exact h
  · exact hn m hm
  · exact hc c hc' m hm

theorem good_setType {n : Node} {nt : NodeType} (hn : Good U n) (h : ByPrecedence U (n.setType nt)) :
    Good U (n.setType nt) := by
  intro m hm
  rcases mem_nodes_setType hm with rfl | hm
  · exact h
  · exact hn m hm

theorem Good.self {n : Node} (h : Good U n) : ByPrecedence U n := h n (self_mem_nodes n)

/-- A node without children. -/
theorem good_leaf (o : Option Token) (ty : NodeType) : Good U (Node.mk o ty .nil) := by
  intro m hm
  simp only [nodes, kidsNodes, List.mem_singleton] at hm
  subst hm
  have hca : ∀ k, childrenAt (Node.mk o ty .nil) k = [] := fun k => rfl
  have hl : leftOperand (Node.mk o ty .nil) = [] := by unfold leftOperand; exact hca _
  have hr : rightOperands (Node.mk o ty .nil) = [] := by
    unfold rightOperands
    rw [hca, hca, hca]
    split <;> rfl
  rw [byPrecedence_iff, hl, hr]
  exact ⟨by simp, by simp⟩

/-- What `construct_node` returns. -/
theorem construct_prec {nt : NodeType} {n : Node} (h : construct U toks ps nt = .ok n) :
    ∃ t, getToken toks ps 0 = .ok t ∧ Good U n ∧ (∀ k, operandKey k = true → childrenAt n k = []) ∧
      ((nt = .EOF ∧ n.ty = .EOF) ∨ (nt = .Unknown ∧ nonopTy n.ty = true ∧ n.tok = some t) ∨
        (nt ≠ .Unknown ∧ n.ty = nt ∧ n.tok = some t)) := by
  have hc : ∀ is ns, commentNodes toks is = .ok ns → ∀ c ∈ ns, Good U c := by
    intro is ns h
    have := commentNodes_ok h
    clear h
    induction this with
    | nil => simp
    | cons h1 _ ih =>
      obtain ⟨t, _, rfl⟩ := h1
      intro c hc
      rcases List.mem_cons.1 hc with rfl | hc
      · exact good_leaf _ _
      · exact ih c hc
  have ha : ∀ o ty m, attachComments toks ps (Node.mk o ty .nil) = .ok m →
      Good U m ∧ (∀ k, operandKey k = true → childrenAt m k = []) ∧ m.ty = ty ∧ m.tok = o := by
    intro o ty m h
    obtain ⟨ls, ts, h1, h2, rfl⟩ := attachComments_ok h
    have hl := hc _ _ h1
    have ht := hc _ _ h2
    have hk : ∀ k, operandKey k = true → k ≠ .k_leading_comments ∧ k ≠ .k_trailing_comments := by
      intro k h
      constructor <;> rintro rfl <;> revert h <;> decide
    have vec : ∀ (n : Node) (cs : List Node) (k : Key), operandKey k = false → (∀ c ∈ cs, Good U c) →
        (Good U n ∧ (∀ k, operandKey k = true → childrenAt n k = []) ∧ n.ty = ty ∧ n.tok = o) →
        (Good U (n.pushVec k cs) ∧ (∀ k', operandKey k' = true → childrenAt (n.pushVec k cs) k' = []) ∧
          (n.pushVec k cs).ty = ty ∧ (n.pushVec k cs).tok = o) := by
      intro n cs k hk hcs hn
      refine ⟨good_pushVec hn.1 hcs ((same_pushVec n cs hk).byPrec hn.1.self), ?_, hn.2.2.1, hn.2.2.2⟩
      intro k' hk'
      rw [cav_ne n (by rintro rfl; rw [hk] at hk'; cases hk')]
      exact hn.2.1 k' hk'
    have h0 : Good U (Node.mk o ty .nil) ∧ (∀ k, operandKey k = true → childrenAt (Node.mk o ty .nil) k = []) ∧
        (Node.mk o ty .nil).ty = ty ∧ (Node.mk o ty .nil).tok = o := ⟨good_leaf _ _, fun _ _ => rfl, rfl, rfl⟩
    split
    · refine vec _ _ _ (by decide) ht ?_
      split
      · exact vec _ _ _ (by decide) hl h0
      · exact h0
    · split
      · exact vec _ _ _ (by decide) hl h0
      · exact h0
  obtain ⟨t, ht, ⟨h1, h⟩ | ⟨h1, ty, h2, h⟩ | ⟨_, h1, h⟩⟩ := construct_ok h
  · obtain ⟨g1, g2, g3, _⟩ := ha _ _ _ h
    exact ⟨t, ht, g1, g2, .inl ⟨h1, g3⟩⟩
  · obtain ⟨g1, g2, g3, g4⟩ := ha _ _ _ h
    refine ⟨t, ht, g1, g2, .inr (.inl ⟨h1, ?_, g4⟩)⟩
    rw [g3]
    unfold classify at h2
    repeat' split at h2
    all_goals first | (cases h2; rfl) | cases h2
  · obtain ⟨g1, g2, g3, g4⟩ := ha _ _ _ h
    exact ⟨t, ht, g1, g2, .inr (.inr ⟨h1, g3, g4⟩)⟩

theorem rowOf_infix : ∀ k ∈ [Kw.sym_star, .sym_slash, .sym_concat, .sym_plus, .sym_minus, .sym_shl, .sym_shr,
    .sym_amp, .sym_caret, .sym_bar, .sym_eq, .sym_lt, .sym_gt, .sym_le, .sym_ge, .sym_ne, .sym_ltgt, .LIKE, .IS,
    .AND, .OR, .sym_arrow], rowOf infixTable k.lit = some (precStr k.lit) ∧
      ([Kw.NOT].any fun k' => k.lit == k'.lit) = false := by decide +kernel

/-- The class of a new operator. -/
theorem clsOf_sound {nt : NodeType} {m : AI.Mask} {c : Cls} {t : Token} {n : Node}
    (h : clsOf nt m = some c) (hm : m.testBit (AI.cls U t) = true) (ht : getToken toks ps 0 = .ok t)
    (hty : n.ty = nt) (htok : n.tok = some t) :
    c.Has n.ty ∧ ∃ b, gp U toks ps 0 = .ok b ∧ opPrec U n = some b := by
  subst hty
  have key : ∀ (ks : List Kw) (b : Nat), m.le (AI.kwMask ks) = true → (∀ k ∈ ks, precStr k.lit = b) →
      (∀ k ∈ ks, ([Kw.NOT].any fun k' => k.lit == k'.lit) = false) → opPrec U n = some b →
      ∃ b, gp U toks ps 0 = .ok b ∧ opPrec U n = some b := by
    intro ks b h1 h2 h3 h4
    obtain ⟨k, hk, hu⟩ := mem_of_le h1 hm
    exact ⟨b, by rw [gp, gp_of_lit ht (by rw [hu]; exact h3 k hk), hu, h2 k hk], h4⟩
  have k109 := fun h1 => key [.BETWEEN, .IN, .IS, .LIKE] 109 h1 (by decide +kernel) (by decide +kernel)
  unfold clsOf at h
  split at h
  · next e =>
    simp only [Bool.or_eq_true, AI.tyEq_iff] at e
    split at h <;> cases h
    next hl =>
    refine ⟨by rcases e with e | e <;> rw [e] <;> simp [Cls.Has], key _ 101 hl (by decide +kernel)
      (by decide +kernel) ?_⟩
    unfold opPrec
    rcases e with e | e <;> rw [e]
  · split at h
    · next e =>
      simp only [Bool.or_eq_true, AI.tyEq_iff] at e
      split at h <;> cases h
      next hl =>
      refine ⟨by rcases e with e | e <;> rw [e] <;> simp [Cls.Has], key _ 102 hl (by decide +kernel)
        (by decide +kernel) ?_⟩
      unfold opPrec
      rcases e with e | e <;> rw [e]
    · split at h
      · next e =>
        rw [AI.tyEq_iff] at e
        split at h <;> cases h
        next hl => exact ⟨e, k109 hl (by unfold opPrec; rw [e])⟩
      · split at h
        · next e =>
          rw [AI.tyEq_iff] at e
          split at h <;> cases h
          next hl => exact ⟨e, k109 hl (by unfold opPrec; rw [e])⟩
        · split at h
          · next e =>
            rw [AI.tyEq_iff] at e
            split at h <;> cases h
            next hl => exact ⟨.inr e, k109 hl (by unfold opPrec; rw [e])⟩
          · split at h
            · next e =>
              rw [AI.tyEq_iff] at e
              split at h <;> cases h
              next hl =>
              refine ⟨.inl e, ?_⟩
              obtain ⟨k, hk, hu⟩ := mem_of_le hl hm
              obtain ⟨h1, h2⟩ := rowOf_infix k hk
              refine ⟨precStr k.lit, by rw [gp, gp_of_lit ht (by rw [hu]; exact h2), hu], ?_⟩
              unfold opPrec
              rw [e]
              dsimp only
              rw [htok]
              show rowOf infixTable (t.upper U) = _
              rw [hu, h1]
            · cases h

theorem aconstruct_sound {nt : NodeType} {a b : PState} {s : St} {v : PV} {n : Node} (h : γ U toks a p q s)
    (e : aconstruct nt a = .ok (v, b)) (hn : construct U toks s.ps nt = .ok n) :
    ∃ q', γ U toks b p q' s ∧ Γ U toks p q' s.ps v (.node n) ∧ Good U n := by
  obtain ⟨t, ht, hg, hk, hty⟩ := construct_prec hn
  have hno : nonopTy n.ty = true → Facts U toks p q s.ps .nonop n := fun h =>
    .nonop (nonop_opPrec h) (cl_nonop h)
  unfold aconstruct at e
  split at e
  · next hu =>
    rw [AI.tyEq_iff] at hu
    cases e
    subst hu
    rcases hty with ⟨h1, _⟩ | ⟨_, h1, h2⟩ | ⟨h1, _⟩
    · cases h1
    · exact ⟨q, h, ⟨h1, hk _ (by decide), ⟨t, h2, fun _ => ht, (by intro h; cases h)⟩, (hno h1).kind _⟩, hg⟩
    · exact absurd rfl h1
  · split at e
    · next hnt =>
      cases e
      have h1 : nonopTy n.ty = true := by
        rcases hty with ⟨_, h1⟩ | ⟨_, h1, _⟩ | ⟨_, h1, _⟩
        · rw [h1]; decide
        · exact h1
        · rw [h1]; exact hnt
      exact ⟨q, h, ⟨h1, hno h1⟩, hg⟩
    · next hu hnt =>
      split at e
      · cases e
      · next c hc =>
        cases e
        rcases hty with ⟨h1, _⟩ | ⟨h1, _, _⟩ | ⟨_, h1, h2⟩
        · subst h1; exact absurd (by decide) hnt
        · exact absurd (AI.tyEq_iff.2 h1) hu
        · obtain ⟨hh, b, hb, hop⟩ := clsOf_sound hc (h.m0 t ht) ht h1 h2
          obtain ⟨hγ, _⟩ := h.bindCur hb
          refine ⟨b, hγ, ⟨hh, hop, fun _ => ⟨fun _ => hk _ (by decide), fun _ => hk _ (by decide)⟩, ?_⟩, hg⟩
          have hl : leftOperand n = [] := by
            unfold leftOperand
            split <;> exact hk _ (by decide)
          refine ⟨?_, (by intro h; cases h), (by intro c h; cases h), (by intro h; cases h), ?_,
            (by intro h; cases h), (by intro h; cases h), (by intro h; cases h),
            (by intro h; cases h), (by intro h; cases h), fun _ _ => .inr (Nat.zero_le _)⟩
          · intro i
            rw [ltB_iff, hl]
            intro x hx
            rw [hop] at hx
            cases hx
            exact ⟨hγ.qlt i, by simp⟩
          · intro i
            have : openPrec U n = none ∧ lastOperand U n = [] := by
              unfold openPrec lastOperand
              cases c with
              | post => rcases hh with h | h | h | h <;> rw [h] <;> exact ⟨rfl, rfl⟩
              | inn => rw [show n.ty = .InOperator from hh]; exact ⟨rfl, rfl⟩
              | bin => cases i
              | btw => cases i
            rw [cl_iff, this.1, this.2]
            exact ⟨rfl, by simp⟩

/-! ### Variables -/

theorem look_filter (x y : Var) (l : List (Var × PV)) :
    look y (l.filter fun e => !Nat.beq x e.1) = if y = x then .top else look y l := by
  induction l with
  | nil => simp [look]
  | cons e l ih =>
    obtain ⟨z, v⟩ := e
    simp only [List.filter_cons]
    by_cases hx : x = z
    · subst hx
      simp only [Nat.beq_refl, Bool.not_true, Bool.false_eq_true, if_false, ih, look]
      by_cases hy : y = x
      · simp [hy]
      · have : Nat.beq y x = false := by
          rw [← Bool.not_eq_true]; exact fun h => hy (Nat.eq_of_beq_eq_true h)
        simp [hy, this]
    · have : Nat.beq x z = false := by
        rw [← Bool.not_eq_true]; exact fun h => hx (Nat.eq_of_beq_eq_true h)
      simp only [this, Bool.not_false, if_true, look, ih]
      by_cases hy : y = z
      · subst hy
        simp [Ne.symm hx]
      · have : Nat.beq y z = false := by
          rw [← Bool.not_eq_true]; exact fun h => hy (Nat.eq_of_beq_eq_true h)
        simp [this]

theorem Γ.top (x : Val) : Γ U toks p q ps .top x := by cases x <;> trivial

theorem γ.set {a : PState} {s : St} {x : Var} {v : PV} {w : Val} (h : γ U toks a p q s)
    (hv : Γ U toks p q s.ps v w) (hw : GoodVal U w) :
    γ U toks (setVar x v a) p q { s with env := s.env.set x w } := by
  refine ⟨?_, h.hp, h.hq, h.m0, h.m1, h.np, h.cp, h.qlt, h.clt, h.qc, ?_⟩
  · intro y
    simp only [Env.set]
    split
    · exact hw
    · exact h.good y
  · intro y
    simp only [setVar, look, look_filter, Env.set]
    by_cases hy : y = x
    · subst hy
      simp only [Nat.beq_refl, if_true]
      exact hv
    · have : Nat.beq y x = false := by
        rw [← Bool.not_eq_true]; exact fun h => hy (Nat.eq_of_beq_eq_true h)
      simp only [hy, this, if_false, Bool.false_eq_true]
      exact h.vars y

/-- A variable gets a value that is described in the same way. -/
theorem γ.keep {a : PState} {s : St} {x : Var} {n : Node} (h : γ U toks a p q s)
    (hv : NVOk U toks p q s.ps (lookNV x a) n) (hw : Good U n) :
    γ U toks a p q { s with env := s.env.set x (.node n) } := by
  refine ⟨?_, h.hp, h.hq, h.m0, h.m1, h.np, h.cp, h.qlt, h.clt, h.qc, ?_⟩
  · intro y
    simp only [Env.set]
    split
    · exact hw
    · exact h.good y
  · intro y
    simp only [Env.set]
    split
    · next hy =>
      subst hy
      unfold lookNV at hv
      cases hl : look y a.vars with
      | node v => rw [hl] at hv; exact hv
      | _ => trivial
    · exact h.vars y

/-! ### Calls -/

/-- What the caller has to establish. -/
def SumPre (U : Unicode) (toks : List Token) (vs : List Val) (ps : PS) : Sum → Prop
  | .expr => ∀ k, vs.head? = some (.nat k) → k ≤ usizeMax
  | .oper m => (∀ t, getToken toks ps 0 = .ok t → m.testBit (AI.cls U t) = true) ∧
      ∀ l, vs.head? = some (.node l) → ∀ c, gp U toks ps 0 = .ok c → SpB U l c
  | _ => True

/-- What a function establishes. -/
def SumOk (U : Unicode) (toks : List Token) (vs : List Val) (ps : PS) (v : Val) (ps' : PS) : Sum → Prop
  | .plain => True
  | .nonop => ∀ n, v = .node n → nonopTy n.ty = true
  | .closed => ∀ n, v = .node n → Cl U n
  | .expr => ∀ p, p ≤ usizeMax → (∀ k, vs.head? = some (.nat k) → k = p) → vs[1]? ≠ some (.bool true) →
      vs[2]? ≠ some (.bool true) → ∀ n, v = .node n →
      LtB U n p ∧ ∀ c, gp U toks ps' 1 = .ok c → SpB U n c ∧ (SO U n ∨ p ≤ c)
  | .oper _ => ∀ n, v = .node n → (∀ c, gp U toks ps' 1 = .ok c → SpB U n c) ∧
      ∀ p, p ≤ usizeMax → (∀ l, vs.head? = some (.node l) → LtB U l p) →
        (∀ c, gp U toks ps 0 = .ok c → c < p) → LtB U n p

/-- Calls respect the summaries. -/
def CallSpec (U : Unicode) (toks : List Token) (T : Fn → Sum)
    (call : Fn → List Val → PS → Out (Val × PS)) : Prop :=
  ∀ f vs ps v ps', SumPre U toks vs ps (T f) → (∀ x ∈ vs, GoodVal U x) → call f vs ps = .ok (v, ps') →
    GoodVal U v ∧ SumOk U toks vs ps v ps' (T f)

theorem aatom_sound {a : PState} {s : St} {t : Atom} {x : Val} (h : γ U toks a p q s)
    (e : evalAtom s.env t = .ok x) : Γ U toks p q s.ps (aatom a t) x ∧ GoodVal U x := by
  cases t with
  | var y => cases e; exact ⟨h.vars y, h.good y⟩
  | bool b => cases e; exact ⟨rfl, trivial⟩
  | nat n => cases e; exact ⟨rfl, trivial⟩
  | kws ks => cases e; exact ⟨trivial, trivial⟩
  | notVar y =>
    simp only [evalAtom] at e
    split at e <;> cases e
    exact ⟨trivial, trivial⟩
  | strEq y k =>
    simp only [evalAtom] at e
    split at e <;> cases e
    exact ⟨trivial, trivial⟩

theorem aatoms_sound {a : PState} {s : St} {ts : List Atom} {xs : List Val} (h : γ U toks a p q s)
    (e : evalAtoms s.env ts = .ok xs) :
    List.Forall₂ (Γ U toks p q s.ps) (ts.map (aatom a)) xs ∧ ∀ x ∈ xs, GoodVal U x := by
  induction ts generalizing xs with
  | nil => cases e; exact ⟨.nil, by simp⟩
  | cons t ts ih =>
    simp only [evalAtoms] at e
    obtain ⟨x, hx, e⟩ := bind_ok e
    obtain ⟨xs', hxs, e⟩ := bind_ok e
    cases e
    obtain ⟨h1, h2⟩ := aatom_sound h hx
    obtain ⟨h3, h4⟩ := ih hxs
    refine ⟨.cons h1 h3, ?_⟩
    intro y hy
    rcases List.mem_cons.1 hy with rfl | hy
    · exact h2
    · exact h4 y hy

theorem γ.moved {a : PState} {s : St} (ps' : PS) (h : γ U toks a p q s) :
    γ U toks (afterCall a) p q { s with ps := ps' } :=
  ⟨h.good, h.hp, h.hq, fun t _ => AI.testBit_TOP (AI.cls_lt U t), fun t _ => AI.testBit_TOP (AI.cls_lt U t),
    (by intro h; cases h), (by intro h; cases h), h.qlt, (by intro h; cases h), h.qc,
    mapNV_ok h.vars fun v n hv => hv.moved h.m0⟩

theorem exprResult_sound {args : List PV} {vs : List Val} {v : NV} (hp : p ≤ usizeMax) (hq : q ≤ usizeMax)
    (h : List.Forall₂ (Γ U toks p q ps) args vs) (e : exprResult args = .ok v) :
    (∀ k, vs.head? = some (.nat k) → k ≤ usizeMax) ∧
    ∀ n ps', SumOk U toks vs ps (.node n) ps' .expr → NVOk U toks p q ps' v n := by
  have head : ∀ (b : PV) (r : List PV), args = b :: r → (∀ k, Γ U toks p q ps b (.nat k) → k ≤ usizeMax) →
      ∀ k, vs.head? = some (.nat k) → k ≤ usizeMax := by
    rintro b r rfl hb k hk
    cases h with
    | cons h1 _ =>
      simp only [List.head?_cons, Option.some.injEq] at hk
      subst hk
      exact hb k h1
  unfold exprResult at e
  split at e
  · next m r =>
    split at e
    · next hm =>
      cases e
      have hm' : m ≤ usizeMax := Nat.le_of_ble_eq_true hm
      refine ⟨head _ _ rfl (by rintro k rfl; exact hm'), ?_⟩
      cases h with
      | cons h1 h => cases h with
        | cons h2 h => cases h with
          | cons h3 h =>
            intro n ps' hn
            obtain ⟨g1, g2⟩ := hn m hm'
              (by intro k hk
                  simp only [List.head?_cons, Option.some.injEq] at hk
                  subst hk; exact h1)
              (by intro hk
                  simp only [List.getElem?_cons_succ, List.getElem?_cons_zero, Option.some.injEq] at hk
                  subst hk; cases h2)
              (by intro hk
                  simp only [List.getElem?_cons_succ, List.getElem?_cons_zero, Option.some.injEq] at hk
                  subst hk; cases h3) n rfl
            exact ⟨(by intro h; cases h), (by intro h; cases h), (by intro c h; cases h; exact g1),
              (by intro h; cases h), (by intro h; cases h), fun _ c hc => (g2 c hc).1,
              (by intro h; cases h), (by intro h; cases h), (by intro h; cases h), (by intro h; cases h),
              fun c hc => (g2 c hc).2⟩
    · cases e
  · next r =>
    cases e
    refine ⟨head _ _ rfl (by rintro k rfl; exact hq), ?_⟩
    cases h with
    | cons h1 h => cases h with
      | cons h2 h => cases h with
        | cons h3 h =>
          intro n ps' hn
          obtain ⟨g1, g2⟩ := hn q hq
            (by intro k hk
                simp only [List.head?_cons, Option.some.injEq] at hk
                subst hk; exact h1)
            (by intro hk
                simp only [List.getElem?_cons_succ, List.getElem?_cons_zero, Option.some.injEq] at hk
                subst hk; cases h2)
            (by intro hk
                simp only [List.getElem?_cons_succ, List.getElem?_cons_zero, Option.some.injEq] at hk
                subst hk; cases h3) n rfl
          exact ⟨(by intro h; cases h), fun _ => g1, (by intro c h; cases h),
            (by intro h; cases h), (by intro h; cases h), fun _ c hc => (g2 c hc).1,
            (by intro h; cases h), (by intro h; cases h), (by intro h; cases h), fun _ c hc => (g2 c hc).2,
            fun c hc => .inr (Nat.zero_le _)⟩
  · next m r _ =>
    split at e
    · next hm =>
      cases e
      exact ⟨head _ _ rfl (by rintro k rfl; exact Nat.le_of_ble_eq_true hm), fun n ps' _ => Facts.any n⟩
    · cases e
  · cases e
    exact ⟨head _ _ rfl (by rintro k rfl; exact hq), fun n ps' _ => Facts.any n⟩
  · cases e
    exact ⟨head _ _ rfl (by rintro k rfl; exact hp), fun n ps' _ => Facts.any n⟩
  · cases e
    exact ⟨head _ _ rfl (by intro k hk; exact hk), fun n ps' _ => Facts.any n⟩
  · cases e

theorem Γ.node {v : NV} {x : Val} (h : ∀ n, x = .node n → NVOk U toks p q ps v n) :
    Γ U toks p q ps (.node v) x := by
  cases x <;> first | trivial | exact h _ rfl

theorem acall_sound {T : Fn → Sum} {call : Fn → List Val → PS → Out (Val × PS)} (hT : CallSpec U toks T call)
    {f : Fn} {args : List Atom} {a b : PState} {s : St} {v : PV} {vs : List Val} {x : Val} {ps' : PS}
    (h : γ U toks a p q s) (e : acall T f args a = .ok (v, b)) (hvs : evalAtoms s.env args = .ok vs)
    (hx : call f vs s.ps = .ok (x, ps')) :
    γ U toks b p q { s with ps := ps' } ∧ Γ U toks p q ps' v x ∧ GoodVal U x := by
  obtain ⟨h1, h2⟩ := aatoms_sound h hvs
  have hT' := hT f vs s.ps x ps'
  unfold acall at e
  split at e
  · next ht =>
    cases e
    rw [ht] at hT'
    exact ⟨h.moved ps', Γ.top x, (hT' trivial h2 hx).1⟩
  · next ht =>
    cases e
    rw [ht] at hT'
    obtain ⟨g1, g2⟩ := hT' trivial h2 hx
    exact ⟨h.moved ps', Γ.node fun n hn => ⟨g2 n hn, .nonop (nonop_opPrec (g2 n hn)) (cl_nonop (g2 n hn))⟩, g1⟩
  · next ht =>
    cases e
    rw [ht] at hT'
    obtain ⟨g1, g2⟩ := hT' trivial h2 hx
    refine ⟨h.moved ps', Γ.node fun n hn => ?_, g1⟩
    exact ⟨(by intro h; cases h), (by intro h; cases h), (by intro c h; cases h), (by intro h; cases h),
      fun _ => g2 n hn, (by intro h; cases h), (by intro h; cases h), (by intro h; cases h),
      (by intro h; cases h), (by intro h; cases h), fun _ _ => .inr (Nat.zero_le _)⟩
  · next ht =>
    split at e
    · cases e
    · next w hw =>
      cases e
      rw [ht] at hT'
      obtain ⟨k1, k2⟩ := exprResult_sound h.hp h.hq h1 hw
      obtain ⟨g1, g2⟩ := hT' k1 h2 hx
      refine ⟨h.moved ps', Γ.node fun n hn => ?_, g1⟩
      subst hn
      exact k2 n ps' g2
  · next m ht =>
    split at e
    · next v hv =>
      rw [hv] at h1
      split at e
      · next hc =>
        cases e
        simp only [Bool.and_eq_true, Bool.or_eq_true] at hc
        obtain ⟨hm, hc⟩ := hc
        rw [ht] at hT'
        have hl : ∀ l, vs.head? = some (.node l) → Facts U toks p q s.ps v.nv l := by
          intro l hl
          cases h1 with
          | cons h1 _ =>
            simp only [List.head?_cons, Option.some.injEq] at hl
            subst hl
            exact Γ.facts h1
        have hpre : ∀ l, vs.head? = some (.node l) → ∀ c, gp U toks s.ps 0 = .ok c → SpB U l c := by
          intro l hl' c hc'
          rcases hc with hc | ⟨hc, hcp⟩
          · exact (hl l hl').tC hc c hc'
          · have := h.cp hcp
            rw [hc'] at this
            cases this
            exact (hl l hl').tq hc
        obtain ⟨g1, g2⟩ := hT' ⟨fun t ht => AI.Mask.le_has hm (h.m0 t ht), hpre⟩ h2 hx
        refine ⟨h.moved ps', Γ.node fun n hn => ?_, g1⟩
        obtain ⟨k1, k2⟩ := g2 n hn
        refine ⟨?_, (by intro h; cases h), (by intro c h; cases h), (by intro h; cases h),
          (by intro h; cases h), fun _ => k1, (by intro h; cases h), (by intro h; cases h),
          (by intro h; cases h), (by intro h; cases h), fun _ _ => .inr (Nat.zero_le _)⟩
        intro i
        dsimp only at i
        simp only [Bool.and_eq_true, Bool.or_eq_true] at i
        refine k2 p h.hp (fun l hl' => (hl l hl').ltP i.1) ?_
        intro c hc
        rcases i.2 with i | ⟨i, j⟩
        · exact h.clt i c hc
        · have := h.cp i
          rw [hc] at this
          cases this
          exact h.qlt j
      · cases e
    · cases e

theorem aeval_sound {T : Fn → Sum} {C : Ctx} (hU : C.U = U) (hC : C.toks = toks) (hT : CallSpec U toks T C.call)
    {e : Exp} {a b : PState} {s s' : St} {v : PV} {x : Val} (h : γ U toks a p q s)
    (ha : aeval T e a = .ok (v, b)) (he : evalExp C s e = .ok (x, s')) :
    ∃ q', γ U toks b p q' s' ∧ Γ U toks p q' s'.ps v x ∧ GoodVal U x := by
  subst hU
  subst hC
  cases e with
  | var y => cases ha; cases he; exact ⟨q, h, h.vars y, h.good y⟩
  | construct nt =>
    simp only [evalExp] at he
    obtain ⟨n, hn, he⟩ := bind_ok he
    cases he
    exact aconstruct_sound h ha hn
  | empty nt =>
    cases he
    simp only [aeval] at ha
    split at ha <;> cases ha
    next hn =>
    have h1 : nonopTy (Node.empty nt).ty = true := hn
    exact ⟨q, h, ⟨h1, .nonop (nonop_opPrec h1) (cl_nonop h1)⟩, good_leaf _ _⟩
  | call f args =>
    simp only [evalExp] at he
    obtain ⟨vs, hvs, he⟩ := bind_ok he
    obtain ⟨r, hr, he⟩ := bind_ok he
    cases he
    exact ⟨q, acall_sound hT h ha hvs hr⟩
  | nilVec =>
    cases ha; cases he
    exact ⟨q, h, Γ.top _, by intro n hn; simp at hn⟩
  | pop y =>
    cases ha
    simp only [evalExp] at he
    split at he
    · next ns hns =>
      split at he
      · next n hn =>
        cases he
        have hg : ∀ n ∈ ns, Good C.U n := by have := h.good y; rw [hns] at this; exact this
        refine ⟨q, ⟨?_, h.hp, h.hq, h.m0, h.m1, h.np, h.cp, h.qlt, h.clt, h.qc, ?_⟩, Γ.top _, ?_⟩
        · intro z
          simp only [Env.set]
          split
          · intro m hm
            exact hg m (List.dropLast_subset _ hm)
          · exact h.good z
        · intro z
          simp only [look_filter, Env.set]
          split
          · exact Γ.top _
          · exact h.vars z
        · exact hg n (List.mem_of_getLast? hn)
      · cases he
    · cases he
  | prec o =>
    simp only [evalExp] at he
    obtain ⟨i, hi, he⟩ := bind_ok he
    obtain ⟨c, hc, he⟩ := bind_ok he
    cases he
    match o, ha with
    | .lit 0, ha =>
      cases ha
      cases hi
      exact ⟨c, (h.bindCur hc).1, rfl, trivial⟩
    | .lit (n + 1), ha => cases ha; exact ⟨q, h, Γ.top _, trivial⟩
    | .var y k, ha => cases ha; exact ⟨q, h, Γ.top _, trivial⟩
  | natLit n => cases ha; cases he; exact ⟨q, h, rfl, trivial⟩
  | boolLit n => cases ha; cases he; exact ⟨q, h, rfl, trivial⟩
  | kws ks => cases ha; cases he; exact ⟨q, h, Γ.top _, trivial⟩
  | upperLit o =>
    cases ha
    simp only [evalExp] at he
    obtain ⟨t, ht, he⟩ := bind_ok he
    cases he
    exact ⟨q, h, Γ.top _, trivial⟩
  | cond c =>
    cases ha
    simp only [evalExp] at he
    obtain ⟨t, ht, he⟩ := bind_ok he
    cases he
    exact ⟨q, h, Γ.top _, trivial⟩

end Verif.PI
