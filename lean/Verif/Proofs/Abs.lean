import Verif.Proofs.Masks
import Verif.Proofs.TreeOps
import Verif.Proofs.Unit
/-! What the abstract values mean. -/
namespace Verif.AI
open Core Spec

/-! ### Local facts about nodes -/

/-- The keys of comments. -/
def IsCommentKey (k : Key) : Prop := k = .k_leading_comments ∨ k = .k_trailing_comments

/-- A comment leaf. -/
def CommentLeaf (c : Node) : Prop := ∃ t, c = .mk (some t) .Comment .nil ∧ t.isComment = true

/-- A node with a given one-character token and nothing below it but comments. -/
structure SymLeaf (kw : Kw) (c : Node) : Prop where
  ty : c.ty = .Symbol
  tok : ∃ t, c.tok = some t ∧ t.literal = kw.lit
  kids : ∀ e ∈ ents c.kids, IsCommentKey e.1

/-- The child fits the requirement, if it has the type. -/
def OfType.Ok (U : Unicode) (c : Node) (s : OfType) : Prop :=
  s.cty = c.ty.ctorIdx → (∀ k : Key, s.must.testBit k.ctorIdx = true → arrayAt c.kids k ≠ none) ∧
    s.ctok.testBit (nodeCls U c) = true

/-- What is known about a child of a node with type `ty` and a token of class `p`. -/
structure KidOk (U : Unicode) (ty : NodeType) (p : Nat) (k : Key) (c : Node) : Prop where
  comment : IsCommentKey k → CommentLeaf c
  other : ¬ IsCommentKey k → c.ty ≠ .Comment
  semicolon : k = .k_semicolon → SymLeaf .sym_semi c
  comma : k = .k_comma → SymLeaf .sym_comma c
  restr : ∀ m, lookupRestr k.ctorIdx (restr ty) = some m → ¬ IsCommentKey k → m.testBit c.ty.ctorIdx = true
  role : ∀ r ∈ roles ty, r.key = k.ctorIdx → r.ptok.testBit p = true → ¬ IsCommentKey k →
    r.ctys.testBit c.ty.ctorIdx = true ∧ r.ctok.testBit (nodeCls U c) = true ∧
      (∀ k', arrayAt c.kids k' ≠ none → r.ckeys.testBit k'.ctorIdx = true) ∧ ∀ s ∈ r.subs, s.Ok U c

/-- What is known about the tokens of certain nodes. -/
structure LitOk (U : Unicode) (n : Node) : Prop where
  null : n.ty = .NullLiteral → ∃ t, n.tok = some t ∧ t.upper U = Kw.lit .NULL
  boolean : n.ty = .BooleanLiteral → ∃ t, n.tok = some t ∧ t.isBoolean U = true
  parameter : n.ty = .Parameter → ∃ t, n.tok = some t ∧ t.isParameter = true
  template : n.ty = .Template → ∃ t, n.tok = some t ∧ t.isTemplate = true
  asterisk : n.ty = .Asterisk → ∃ t, n.tok = some t ∧ t.literal = Kw.lit .sym_star

/-- What is known about every node. -/
structure J (U : Unicode) (toks : List Token) (n : Node) : Prop where
  ty : n.ty ≠ .EOF ∧ n.ty ≠ .Comment
  kid : ∀ e ∈ ents n.kids, ∀ c ∈ e.2.2, KidOk U n.ty (nodeCls U n) e.1 c
  lits : LitOk U n
  comments : (n.tok = none ∧ arrayAt n.kids .k_leading_comments = none ∧
      arrayAt n.kids .k_trailing_comments = none) ∨ ∃ i, Carries toks i n

/-- The node conforms to the tables. -/
structure Close (U : Unicode) (n : Node) : Prop where
  node : ∀ k, arrayAt n.kids k = some false → (allowN n.ty).testBit k.ctorIdx = true
  vec : ∀ k, arrayAt n.kids k = some true → (allowV n.ty).testBit k.ctorIdx = true
  need : ∀ k, Nat.testBit (needed n.ty) (Key.ctorIdx k) = true → arrayAt n.kids k ≠ none
  token : (allowT n.ty).testBit (nodeCls U n) = true

/-- A comment, or a node that satisfies everything. -/
def Good (U : Unicode) (toks : List Token) (m : Node) : Prop :=
  CommentLeaf m ∨ (J U toks m ∧ Close U m)

/-- Everything in the tree is good. -/
def Closed (U : Unicode) (toks : List Token) (n : Node) : Prop := ∀ m ∈ nodes n, Good U toks m

/-- A node under construction: everything below it is closed. -/
structure Open (U : Unicode) (toks : List Token) (n : Node) : Prop where
  j : J U toks n
  kids : ∀ e ∈ ents n.kids, ∀ c ∈ e.2.2, Closed U toks c

theorem Open.closed {U : Unicode} {toks : List Token} {n : Node} (h : Open U toks n) (hc : Close U n) :
    Closed U toks n := by
  intro m hm
  rw [nodes_eq] at hm
  rcases List.mem_cons.1 hm with rfl | hm
  · exact .inr ⟨h.j, hc⟩
  · obtain ⟨e, he, hm⟩ := List.mem_flatMap.1 hm
    obtain ⟨c, hc, hm⟩ := List.mem_flatMap.1 hm
    exact h.kids e he c hc m hm

/-- The node fits the alternative. -/
structure Sat (U : Unicode) (a : Alt) (n : Node) : Prop where
  ty : n.ty = a.ty
  node : ∀ k, arrayAt n.kids k = some false → a.mN.testBit k.ctorIdx = true
  vec : ∀ k, arrayAt n.kids k = some true → a.mV.testBit k.ctorIdx = true
  must : ∀ k : Key, a.must.testBit k.ctorIdx = true → arrayAt n.kids k ≠ none
  lit : a.lit.testBit (nodeCls U n) = true

theorem Sat.mono {U : Unicode} {a b : Alt} {n : Node} (h : Sat U a n) (hle : a.le b = true) :
    Sat U b n := by
  simp only [Alt.le, Bool.and_eq_true] at hle
  obtain ⟨⟨⟨⟨h1, h2⟩, h3⟩, h4⟩, h5⟩ := hle
  exact ⟨h.ty.trans (tyEq_iff.1 h1), fun k hk => Mask.le_has h2 (h.node k hk),
    fun k hk => Mask.le_has h3 (h.vec k hk), fun k hk => h.must k (Mask.le_has h4 hk),
    Mask.le_has h5 h.lit⟩

theorem Sat.close {U : Unicode} {a : Alt} {n : Node} (h : Sat U a n) (hc : a.closeOk = true) :
    Close U n := by
  simp only [Alt.closeOk, Bool.and_eq_true] at hc
  obtain ⟨⟨⟨h1, h2⟩, h3⟩, h4⟩ := hc
  refine ⟨fun k hk => ?_, fun k hk => ?_, fun k hk => ?_, ?_⟩
  · rw [h.ty]; exact Mask.le_has h1 (h.node k hk)
  · rw [h.ty]; exact Mask.le_has h2 (h.vec k hk)
  · rw [h.ty] at hk; exact h.must k (Mask.le_has h3 hk)
  · rw [h.ty]; exact Mask.le_has h4 h.lit

theorem Sat.may {U : Unicode} {a : Alt} {n : Node} (h : Sat U a n) {k : Key}
    (hk : arrayAt n.kids k ≠ none) : (a.mN ||| a.mV).testBit k.ctorIdx = true := by
  rw [Nat.testBit_or, Bool.or_eq_true]
  rcases hb : arrayAt n.kids k with _ | _ | _
  · exact absurd hb hk
  · exact .inl (h.node k hb)
  · exact .inr (h.vec k hb)

theorem Role.applies_iff {r : Role} {k : Nat} {lit : Mask} {p : Nat} (h : r.key = k) (h1 : r.ptok.testBit p = true)
    (h2 : lit.testBit p = true) : r.applies k lit = true := by
  unfold Role.applies
  rw [Bool.and_eq_true, Bool.not_eq_true', ← Bool.not_eq_true]
  refine ⟨by rw [h]; exact Nat.beq_refl _, fun hb => ?_⟩
  have h0 := Nat.eq_of_beq_eq_true hb
  have : (r.ptok &&& lit).testBit p = true := by rw [Nat.testBit_and, h1, h2]; rfl
  rw [h0, Nat.zero_testBit] at this
  cases this

theorem Role.covered_mem {r : Role} {p : Nat} {l : List Role} (h : (r.covered l).testBit p = true) :
    ∃ r' ∈ l, r'.stricter r = true ∧ r'.ptok.testBit p = true := by
  induction l with
  | nil => simp [Role.covered] at h
  | cons r' l ih =>
    unfold Role.covered at h
    split at h
    · next hs =>
      rw [Nat.testBit_or, Bool.or_eq_true] at h
      rcases h with h | h
      · exact ⟨r', List.mem_cons_self, hs, h⟩
      · obtain ⟨x, h1, h2⟩ := ih h
        exact ⟨x, List.mem_cons_of_mem _ h1, h2⟩
    · obtain ⟨x, h1, h2⟩ := ih h
      exact ⟨x, List.mem_cons_of_mem _ h1, h2⟩

theorem Role.fits_sound {U : Unicode} {r : Role} {a : Alt} {c : Node} (h : r.fits a = true) (hs : Sat U a c) :
    r.ctys.testBit c.ty.ctorIdx = true ∧ r.ctok.testBit (nodeCls U c) = true ∧
      (∀ k', arrayAt c.kids k' ≠ none → r.ckeys.testBit k'.ctorIdx = true) ∧ ∀ s ∈ r.subs, s.Ok U c := by
  simp only [Role.fits, Bool.and_eq_true] at h
  obtain ⟨⟨⟨h1, h2⟩, h3⟩, h4⟩ := h
  refine ⟨by rw [hs.ty]; exact h1, Mask.le_has h2 hs.lit, fun k' hk => Mask.le_has h3 (hs.may hk), ?_⟩
  intro s hsm hty
  have := List.all_eq_true.1 h4 s hsm
  rw [hs.ty] at hty
  simp only [OfType.fits, hty, Nat.beq_refl, Bool.not_true, Bool.false_or, Bool.and_eq_true] at this
  exact ⟨fun k hk => hs.must k (Mask.le_has this.1 hk), Mask.le_has this.2 hs.lit⟩

theorem OfType.stricter_sound {U : Unicode} {r r' : Role} {c : Node} (hty : r'.ctys.testBit c.ty.ctorIdx = true)
    (h : (r.subs.all fun s => !Mask.has r'.ctys s.cty || r'.subs.any s.stricter) = true)
    (hs : ∀ s ∈ r'.subs, s.Ok U c) : ∀ s ∈ r.subs, s.Ok U c := by
  intro s hsm he
  have := List.all_eq_true.1 h s hsm
  rw [he, Mask.has, hty, Bool.not_true, Bool.false_or] at this
  obtain ⟨s', hm, h2⟩ := List.any_eq_true.1 this
  simp only [OfType.stricter, Bool.and_eq_true] at h2
  obtain ⟨g1, g2⟩ := hs s' hm ((Nat.eq_of_beq_eq_true h2.1.1).trans he)
  exact ⟨fun k hk => g1 k (Mask.le_has h2.1.2 hk), Mask.le_has h2.2 g2⟩

/-! ### Values -/

/-- The nodes a value owns. -/
def own : Val → List Node
  | .node n => [n]
  | .vec ns => ns
  | _ => []

/-- A node described by one of the alternatives. -/
def Is (U : Unicode) (toks : List Token) (as : List Alt) (n : Node) : Prop :=
  Open U toks n ∧ ∃ a ∈ as, Sat U a n

/-- The value fits the abstract value. -/
def Γ (U : Unicode) (toks : List Token) : AVal → Val → Prop
  | .node as, .node n => Is U toks as n
  | .closed, .node n => Open U toks n ∧ Close U n
  | .vec as z o m, .vec ns => (∀ n ∈ ns, Is U toks as n) ∧ (ns.length = 0 → z = true) ∧
      (ns.length = 1 → o = true) ∧ (2 ≤ ns.length → m = true)
  | .bool b, .bool c => b = none ∨ b = some c
  | .nat, .nat _ => True
  | .str, .str _ => True
  | .kws, .kws _ => True
  | _, _ => False

variable {U : Unicode} {toks : List Token}

theorem altsLe_is {as bs : List Alt} {n : Node} (hle : altsLe as bs = true) (h : Is U toks as n) :
    Is U toks bs n := by
  obtain ⟨h1, a, ha, h2⟩ := h
  obtain ⟨b, hb, hab⟩ := List.any_eq_true.1 (List.all_eq_true.1 hle a ha)
  exact ⟨h1, b, hb, h2.mono hab⟩

theorem Is.close {as : List Alt} {n : Node} (h : Is U toks as n) (hc : as.all Alt.closeOk = true) :
    Close U n := by
  obtain ⟨h1, a, ha, h2⟩ := h
  exact h2.close (List.all_eq_true.1 hc a ha)

theorem Γ.mono {u v : AVal} {x : Val} (hle : u.le v = true) (h : Γ U toks u x) : Γ U toks v x := by
  unfold AVal.le at hle
  split at hle
  · cases x <;> try exact h.elim
    exact altsLe_is hle h
  · cases x <;> try exact h.elim
    exact ⟨h.1, Is.close h hle⟩
  · exact h
  · cases x <;> try exact h.elim
    simp only [Bool.and_eq_true, Bool.or_eq_true, Bool.not_eq_true'] at hle
    obtain ⟨⟨⟨h1, h2⟩, h3⟩, h4⟩ := hle
    obtain ⟨g1, g2, g3, g4⟩ := h
    refine ⟨fun n hn => altsLe_is h1 (g1 n hn), fun h => ?_, fun h => ?_, fun h => ?_⟩
    · have := g2 h; simp_all
    · have := g3 h; simp_all
    · have := g4 h; simp_all
  · cases x <;> try exact h.elim
    exact .inl rfl
  · cases x <;> try exact h.elim
    simp only [beq_iff_eq] at hle
    subst hle
    exact h
  · exact h
  · exact h
  · exact h
  · cases hle

/-! ### Accounting -/

/-- Weight of the token of a node. -/
def twt (w : Token → Nat) (m : Node) : Nat :=
  match m.tok with
  | some t => w t
  | none => 0

/-- Weight of all tokens in a list of trees. -/
def Wt (w : Token → Nat) (l : List Node) : Nat := ((l.flatMap nodes).map (twt w)).sum

/-- Weight of the first `i` tokens. -/
def pre (w : Token → Nat) (toks : List Token) (i : Nat) : Nat := ((toks.take i).map w).sum

/-- A column type with both a primary key and a reference. -/
def DirtyT (m : Node) : Prop :=
  m.ty = .Type ∧ .k_primarykey ∈ m.kids.keys ∧ .k_references ∈ m.kids.keys ∧ .k_enforced ∈ m.kids.keys

/-- The other nodes in which a semicolon can be lost. -/
def DirtyS (m : Node) : Prop :=
  (m.ty = .MergeStatement ∧ .k_semicolon ∈ m.kids.keys) ∨
  ((m.ty = .FromStatement ∨ m.ty = .PipeStatement) ∧ .k_leading_label ∈ m.kids.keys ∧
    .k_semicolon ∈ m.kids.keys)

/-- A node in which tokens can be lost; with `z`, semicolons do not count. -/
def Dirty (z : Bool) (m : Node) : Prop := DirtyT m ∨ (z = false ∧ DirtyS m)

/-- Some node of the trees is lossy. -/
def DL (z : Bool) (l : List Node) : Prop := ∃ n ∈ l, ∃ m ∈ nodes n, Dirty z m

/-- From the trees `l` at index `e` to the trees `l'` at index `e'`: the tokens between the indices have
been added, except some that were lost in a lossy node. -/
def Step (w : Token → Nat) (z : Bool) (toks : List Token) (l : List Node) (e : Nat) (l' : List Node)
    (e' : Nat) : Prop :=
  ∃ δ, Wt w l' + δ + pre w toks e = Wt w l + pre w toks e' ∧ ((δ ≠ 0 ∨ DL z l) → DL z l')

variable {w : Token → Nat} {z : Bool}

theorem Wt_append (l l' : List Node) : Wt w (l ++ l') = Wt w l + Wt w l' := by
  simp [Wt]

theorem Wt_cons (n : Node) (l : List Node) : Wt w (n :: l) = Wt w [n] + Wt w l := by
  rw [← Wt_append]; rfl

theorem Wt_nil : Wt w [] = 0 := rfl

theorem Wt_perm {l l' : List Node} (h : l.Perm l') : Wt w l = Wt w l' :=
  ((h.flatMap_right nodes).map (twt w)).sum_nat

theorem DL_append (l l' : List Node) : DL z (l ++ l') ↔ DL z l ∨ DL z l' := by
  simp only [DL, List.mem_append]
  constructor
  · rintro ⟨n, h | h, r⟩
    · exact .inl ⟨n, h, r⟩
    · exact .inr ⟨n, h, r⟩
  · rintro (⟨n, h, r⟩ | ⟨n, h, r⟩)
    · exact ⟨n, .inl h, r⟩
    · exact ⟨n, .inr h, r⟩

theorem DL_cons (n : Node) (l : List Node) : DL z (n :: l) ↔ DL z [n] ∨ DL z l := by
  rw [← DL_append]; rfl

theorem DL_nil : ¬ DL z [] := by rintro ⟨n, h, _⟩; simp at h

theorem DL_perm {l l' : List Node} (h : l.Perm l') : DL z l ↔ DL z l' := by
  simp only [DL, h.mem_iff]

theorem Step.perm {l l' : List Node} (h : l.Perm l') (e : Nat) : Step w z toks l e l' e :=
  ⟨0, by rw [Wt_perm h]; omega, by rintro (h' | h'); exact absurd rfl h'; exact (DL_perm h).1 h'⟩

theorem Step.refl (l : List Node) (e : Nat) : Step w z toks l e l e := Step.perm (.refl l) e

theorem Step.trans {l l' l'' : List Node} {e e' e'' : Nat} (h : Step w z toks l e l' e')
    (h' : Step w z toks l' e' l'' e'') : Step w z toks l e l'' e'' := by
  obtain ⟨d, h1, h2⟩ := h
  obtain ⟨d', h1', h2'⟩ := h'
  refine ⟨d + d', by omega, ?_⟩
  rintro (h | h)
  · by_cases hd : d = 0
    · exact h2' (.inl (by omega))
    · exact h2' (.inr (h2 (.inl hd)))
  · exact h2' (.inr (h2 (.inr h)))

theorem Step.frame {l l' : List Node} {e e' : Nat} (h : Step w z toks l e l' e') (r : List Node) :
    Step w z toks (l ++ r) e (l' ++ r) e' := by
  obtain ⟨d, h1, h2⟩ := h
  refine ⟨d, by rw [Wt_append, Wt_append]; omega, ?_⟩
  rw [DL_append, DL_append]
  rintro (h | h | h)
  · exact .inl (h2 (.inl h))
  · exact .inl (h2 (.inr h))
  · exact .inr h

theorem Step.frameL {l l' : List Node} {e e' : Nat} (h : Step w z toks l e l' e') (r : List Node) :
    Step w z toks (r ++ l) e (r ++ l') e' :=
  ((Step.perm List.perm_append_comm e).trans (h.frame r)).trans (Step.perm List.perm_append_comm e')

/-! ### Abstract states -/

/-- The nodes owned by the live variables. -/
def owned (vars : List (Var × AVal)) (env : Env) : List Node := vars.flatMap fun p => own (env p.1)

/-- The tokens before this index have been accounted for. -/
def endOf (toks : List Token) (c : Cov) (ps : PS) : Nat :=
  if isUnc c then leadStart toks ps.pos else trailEnd toks ps.pos

/-- A node that holds the current token and its comments and nothing else. -/
structure Fresh (U : Unicode) (toks : List Token) (ps : PS) (n : Node) : Prop where
  tok : n.tok = toks[ps.pos]?
  kids : ∀ e ∈ ents n.kids, IsCommentKey e.1
  weight : ∀ w, Wt w [n] + pre w toks (leadStart toks ps.pos) = pre w toks (trailEnd toks ps.pos)

/-- The tokens at offsets 0 and 1 are in the masks. -/
structure MaskOk (U : Unicode) (toks : List Token) (t0 t1 : Mask) (ps : PS) : Prop where
  m0 : ∀ t, getToken toks ps 0 = .ok t → t0.testBit (cls U t) = true
  m1 : ∀ t, getToken toks ps 1 = .ok t → t1.testBit (cls U t) = true

/-- The state fits the abstract state. -/
structure GS (U : Unicode) (toks : List Token) (a : AState) (s : St) : Prop where
  wf : s.ps.WF toks
  mask : MaskOk U toks a.t0 a.t1 s.ps
  vars : ∀ p ∈ a.vars, Γ U toks p.2 (s.env p.1)
  nodup : (a.vars.map Prod.fst).Nodup
  fresh : ∀ x, a.cov = .fresh x → ∃ n, s.env x = .node n ∧ Fresh U toks s.ps n

end Verif.AI
