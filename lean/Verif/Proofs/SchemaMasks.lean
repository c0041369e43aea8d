import Verif.Proofs.Top
import Verif.Spec.Schema
/-! The masks of the analysis agree with the tables of the specification. -/
namespace Verif.AI
open Spec

/-- Keys of one kind. -/
def keysOf (kd : Kind) (l : List (Key × Kind)) : List Key :=
  l.filterMap fun e => if e.2 = kd then some e.1 else none

theorem mem_keysOf {kd : Kind} {l : List (Key × Kind)} {k : Key} : k ∈ keysOf kd l ↔ (k, kd) ∈ l := by
  unfold keysOf
  rw [List.mem_filterMap]
  constructor
  · rintro ⟨⟨k', kd'⟩, h1, h2⟩
    split at h2
    · next h => cases h2; dsimp only at h; subst h; exact h1
    · cases h2
  · intro h; exact ⟨_, h, by simp⟩

/-- Mask of a list of node types. -/
def tysMask : List NodeType → Mask
  | [] => 0
  | t :: ts => bit t.ctorIdx ||| tysMask ts

theorem testBit_tysMask (ts : List NodeType) (i : Nat) :
    (tysMask ts).testBit i = true ↔ ∃ t ∈ ts, t.ctorIdx = i := by
  induction ts with
  | nil => simp [tysMask]
  | cons k ks ih => simp [tysMask, Nat.testBit_or, testBit_bit, ih]

/-- Membership of keys through their index. -/
def memKey (k : Key) (l : List Key) : Bool := l.any fun k' => Nat.beq k.ctorIdx k'.ctorIdx

theorem memKey_iff {k : Key} {l : List Key} : memKey k l = true ↔ k ∈ l := by
  unfold memKey
  rw [List.any_eq_true]
  constructor
  · rintro ⟨k', h, hb⟩; rw [key_beq.1 hb]; exact h
  · intro h; exact ⟨k, h, key_beq.2 rfl⟩

/-- The tables agree for a node type. -/
def tablesOk (ty : NodeType) : Bool :=
  Mask.le (allowN ty) (keysMask (keysOf .node (declared ty ++ undeclared ty))) &&
  Mask.le (allowV ty) (keysMask (keysOf .vec (declared ty ++ undeclared ty))) &&
  ((mandatory ty).all fun k => memKey k (omissible ty) || Nat.testBit (needed ty) k.ctorIdx) &&
  (match tokenOf ty with
   | some ks => Mask.le (allowT ty) (kwMask ks)
   | none => true) &&
  (tyEq ty .TypeDeclaration || !Nat.testBit (allowT ty) NOTOK) &&
  ((childTypes ty).all fun e => memKey e.1 [.k_leading_comments, .k_trailing_comments] ||
    memKey e.1 (otherTypes ty) ||
    match lookupRestr e.1.ctorIdx (restr ty) with
    | some m => Mask.le m (tysMask e.2)
    | none => false) &&
  ((childTypes ty).all fun e => !memKey e.1 [.k_leading_comments, .k_trailing_comments] ||
    e.2.any fun t => tyEq t .Comment)

theorem tables_ok (ty : NodeType) : tablesOk ty = true := by
  have : ∀ ty ∈ NodeType.all, tablesOk ty = true := by decide +kernel
  exact this ty (mem_nodeType_all ty)

variable {U : Unicode} {n : Node} {toks : List Token}

theorem Close.declared_node (h : Close U n) {k : Key} (hk : arrayAt n.kids k = some false) :
    (k, Kind.node) ∈ declared n.ty ++ undeclared n.ty := by
  have ht := tables_ok n.ty
  simp only [tablesOk, Bool.and_eq_true] at ht
  obtain ⟨k', h1, h2⟩ := (testBit_keysMask _ _).1 (Mask.le_has ht.1.1.1.1.1.1 (h.node k hk))
  have := key_inj h2
  subst this
  exact mem_keysOf.1 h1

theorem Close.declared_vec (h : Close U n) {k : Key} (hk : arrayAt n.kids k = some true) :
    (k, Kind.vec) ∈ declared n.ty ++ undeclared n.ty := by
  have ht := tables_ok n.ty
  simp only [tablesOk, Bool.and_eq_true] at ht
  obtain ⟨k', h1, h2⟩ := (testBit_keysMask _ _).1 (Mask.le_has ht.1.1.1.1.1.2 (h.vec k hk))
  have := key_inj h2
  subst this
  exact mem_keysOf.1 h1

theorem Close.mandatory (h : Close U n) {k : Key} (hk : k ∈ mandatory n.ty) (ho : k ∉ omissible n.ty) :
    arrayAt n.kids k ≠ none := by
  have ht := tables_ok n.ty
  simp only [tablesOk, Bool.and_eq_true] at ht
  have := List.all_eq_true.1 ht.1.1.1.1.2 k hk
  rw [Bool.or_eq_true, memKey_iff] at this
  exact h.need k (this.resolve_left ho)

theorem Close.tokenOf (h : Close U n) {ks : List Kw} (hk : tokenOf n.ty = some ks)
    (hn : n.tok ≠ none) : ∃ t, n.tok = some t ∧ ∃ k ∈ ks, t.upper U = k.lit := by
  have ht := tables_ok n.ty
  simp only [tablesOk, Bool.and_eq_true] at ht
  have := ht.1.1.1.2
  rw [hk] at this
  have h1 := Mask.le_has this h.token
  obtain ⟨k, hk, h2⟩ := (testBit_kwMask _ _).1 h1
  unfold nodeCls at h2
  cases hn' : n.tok with
  | none => exact absurd hn' hn
  | some t =>
    rw [hn'] at h2
    exact ⟨t, rfl, k, hk, clsOf_eq.1 h2.symm⟩

theorem Close.hasToken (h : Close U n) (hty : n.ty ≠ .TypeDeclaration) : n.tok ≠ none := by
  intro hn
  have ht := tables_ok n.ty
  simp only [tablesOk, Bool.and_eq_true, Bool.or_eq_true, Bool.not_eq_true'] at ht
  have h1 := h.token
  unfold nodeCls at h1
  rw [hn] at h1
  rcases ht.1.1.2 with h2 | h2
  · exact hty (tyEq_iff.1 h2)
  · rw [h2] at h1; cases h1

theorem J.childTypes (h : J U toks n) {e : Key × List NodeType} (he : e ∈ childTypes n.ty)
    (ho : e.1 ∉ otherTypes n.ty) : ∀ p ∈ ents n.kids, p.1 = e.1 → ∀ c ∈ p.2.2, c.ty ∈ e.2 := by
  intro p hp hpe c hc
  have ht := tables_ok n.ty
  simp only [tablesOk, Bool.and_eq_true] at ht
  have hk := h.kid p hp c hc
  rw [hpe] at hk
  have h1 := List.all_eq_true.1 ht.1.2 e he
  have h2 := List.all_eq_true.1 ht.2 e he
  by_cases hcm : IsCommentKey e.1
  · obtain ⟨t, rfl, _⟩ := hk.comment hcm
    rw [Bool.or_eq_true, Bool.not_eq_true'] at h2
    rcases h2 with h2 | h2
    · have : memKey e.1 [.k_leading_comments, .k_trailing_comments] = true := by
        rw [memKey_iff]; rcases hcm with h | h <;> simp [h]
      rw [this] at h2; cases h2
    · obtain ⟨t', h3, h4⟩ := List.any_eq_true.1 h2
      rw [tyEq_iff] at h4; subst h4
      exact h3
  · rw [Bool.or_eq_true, Bool.or_eq_true, memKey_iff, memKey_iff] at h1
    rcases h1 with (h1 | h1) | h1
    · simp only [List.mem_cons, List.not_mem_nil, or_false] at h1; exact absurd h1 hcm
    · exact absurd h1 ho
    · cases hl : lookupRestr e.1.ctorIdx (restr n.ty) with
      | none => rw [hl] at h1; cases h1
      | some m =>
        rw [hl] at h1
        obtain ⟨t', h3, h4⟩ := (testBit_tysMask _ _).1 (Mask.le_has h1 (hk.restr m hl hcm))
        have := nodeType_inj h4
        subst this
        exact h3

end Verif.AI
