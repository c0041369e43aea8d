import Verif.Proofs.SchemaMasks
import Verif.Spec.Roles
/-! The masks of the roles agree with the table of the specification. -/
namespace Verif.AI
open Spec

/-- A role of the specification as masks (its condition on the parent is treated in `roleOk`). -/
def maskOf (r : Spec.Role) : Role where
  key := r.key.ctorIdx
  ptok := 0
  ctys := match r.types with
    | none => 2 ^ 200 - 1
    | some ts => tysMask ts
  ctok := match r.tokens with
    | none => 2 ^ 302 - 1
    | some ks => kwMask ks
  ckeys := (2 ^ 300 - 1) ^^^ keysMask r.without
  subs := r.each.map fun s => ⟨s.type.ctorIdx, keysMask s.has, match s.tokens with
    | none => 2 ^ 302 - 1
    | some ks => kwMask ks⟩

/-- The role is in the table of masks, or nodes of the type have no such children. -/
def roleOk (ty : NodeType) (r : Spec.Role) : Bool :=
  !memKey r.key [.k_leading_comments, .k_trailing_comments] &&
  (!Mask.has (allowN ty ||| allowV ty) r.key.ctorIdx ||
    Mask.le (match r.parent with
      | none => allowT ty
      | some ks => kwMask ks) ((maskOf r).covered (roles ty) ||| kwMask r.notParent)) &&
  Mask.le (keysMask r.without) (2 ^ 300 - 1)

theorem roles_ok (ty : NodeType) : ∀ r ∈ everywhere ++ Spec.roles ty, roleOk ty r = true := by
  have : ∀ ty ∈ NodeType.all, (everywhere ++ Spec.roles ty).all (roleOk ty) = true := by decide +kernel
  intro r hr
  exact List.all_eq_true.1 (this ty (mem_nodeType_all ty)) r hr

set_option exponentiation.threshold 400
variable {U : Unicode} {n : Node} {toks : List Token}

theorem hasToken_of_mask {ks : List Kw} (h : (kwMask ks).testBit (nodeCls U n) = true) : HasToken U n ks := by
  obtain ⟨k, hk, h2⟩ := (testBit_kwMask _ _).1 h
  unfold nodeCls at h2
  cases hn : n.tok with
  | none =>
    rw [hn] at h2
    have := kw_idx_lt k (mem_kw_all k)
    dsimp only at h2
    rw [h2] at this
    exact absurd this (by decide)
  | some t =>
    rw [hn] at h2
    exact ⟨t, hn, k, hk, clsOf_eq.1 h2.symm⟩

theorem mask_of_hasToken {ks : List Kw} (h : HasToken U n ks) : (kwMask ks).testBit (nodeCls U n) = true := by
  obtain ⟨t, ht, k, hk, h2⟩ := h
  rw [testBit_kwMask]
  refine ⟨k, hk, ?_⟩
  unfold nodeCls
  rw [ht]
  exact (clsOf_eq.2 h2).symm

theorem hasChild_array {c : Node} {k : Key} (h : HasChild c k) : arrayAt c.kids k ≠ none := by
  obtain ⟨e, he, rfl⟩ := h
  rw [children_ents] at he
  obtain ⟨q, hq, rfl⟩ := List.mem_map.1 he
  rw [arrayAt_look]
  intro hn
  exact look_of_mem hq (by simpa using hn)

theorem array_hasChild {c : Node} {k : Key} (h : arrayAt c.kids k ≠ none) : HasChild c k := by
  rw [arrayAt_look] at h
  cases hl : look k (ents c.kids) with
  | none => rw [hl] at h; exact absurd rfl h
  | some p =>
    refine ⟨(k, p.2), ?_, rfl⟩
    rw [children_ents]
    exact List.mem_map.2 ⟨_, mem_of_look hl, rfl⟩

theorem role_key {ty : NodeType} {r : Spec.Role} (hr : r ∈ everywhere ++ Spec.roles ty) : ¬ IsCommentKey r.key := by
  have ht := roles_ok ty r hr
  simp only [roleOk, Bool.and_eq_true, Bool.not_eq_true'] at ht
  intro h
  have : memKey r.key [.k_leading_comments, .k_trailing_comments] = true := by
    rw [memKey_iff]; rcases h with h | h <;> simp [h]
  rw [this] at ht; cases ht.1.1

/-- The roles hold for every node the analysis describes. -/
theorem J.roles (hJ : J U toks n) (hC : Close U n) {r : Spec.Role} (hr : r ∈ everywhere ++ Spec.roles n.ty)
    (hp : ∀ ks, r.parent = some ks → HasToken U n ks) (hu : ¬ HasToken U n r.notParent) :
    ∀ p ∈ ents n.kids, p.1 = r.key → ∀ c ∈ p.2.2,
      (∀ ts, r.types = some ts → c.ty ∈ ts) ∧ (∀ ks, r.tokens = some ks → HasToken U c ks) ∧
      (∀ k ∈ r.without, ¬ HasChild c k) ∧ ∀ s ∈ r.each, s.Holds U c := by
  intro p hpm hpe c hc
  have ht := roles_ok n.ty r hr
  simp only [roleOk, Bool.and_eq_true, Bool.not_eq_true', Bool.or_eq_true] at ht
  obtain ⟨⟨_, h2⟩, h3⟩ := ht
  have hcm := role_key hr
  have hk := hJ.kid p hpm c hc
  rw [hpe] at hk
  have hat : arrayAt n.kids r.key ≠ none := by
    refine hasChild_array ⟨(p.1, p.2.2), ?_, hpe⟩
    rw [children_ents]
    exact List.mem_map.2 ⟨p, hpm, rfl⟩
  have hall : Mask.has (allowN n.ty ||| allowV n.ty) r.key.ctorIdx = true := by
    unfold Mask.has
    rw [Nat.testBit_or, Bool.or_eq_true]
    rcases hb : arrayAt n.kids r.key with _ | _ | _
    · exact absurd hb hat
    · exact .inl (hC.node _ hb)
    · exact .inr (hC.vec _ hb)
  rw [hall] at h2
  have h2 := h2.resolve_left (by simp)
  have h4 : ((maskOf r).covered (AI.roles n.ty) ||| kwMask r.notParent).testBit (nodeCls U n) = true := by
    refine Mask.le_has h2 ?_
    cases hpar : r.parent with
    | none => exact hC.token
    | some ks => exact mask_of_hasToken (hp ks hpar)
  rw [Nat.testBit_or, Bool.or_eq_true] at h4
  rcases h4 with h4 | h4
  swap
  · exact absurd (hasToken_of_mask h4) hu
  obtain ⟨r', hr', hst, hpt⟩ := Role.covered_mem h4
  simp only [Role.stricter, Bool.and_eq_true] at hst
  obtain ⟨⟨⟨⟨s1, s2⟩, s3⟩, s4⟩, s5⟩ := hst
  obtain ⟨f1, f2, f3, f4⟩ := hk.role r' hr' (Nat.eq_of_beq_eq_true s1) hpt hcm
  refine ⟨fun ts hts => ?_, fun ks hks => ?_, fun k hkw hch => ?_, fun s hsm hty => ?_⟩
  · have := Mask.le_has s2 f1
    simp only [maskOf, hts] at this
    obtain ⟨t', h5, h6⟩ := (testBit_tysMask _ _).1 this
    rw [← nodeType_inj h6]; exact h5
  · have := Mask.le_has s3 f2
    simp only [maskOf, hks] at this
    exact hasToken_of_mask this
  · have h5 := Mask.le_has s4 (f3 k (hasChild_array hch))
    have h6 : (keysMask r.without).testBit k.ctorIdx = true := (testBit_keysMask _ _).2 ⟨k, hkw, rfl⟩
    have h7 := Mask.le_has h3 h6
    simp only [maskOf, Nat.testBit_xor, h6, h7] at h5
    cases h5
  · obtain ⟨g1, g2⟩ := OfType.stricter_sound f1 s5 f4 _ (List.mem_map.2 ⟨s, hsm, rfl⟩) (by rw [hty])
    refine ⟨fun k hk => array_hasChild (g1 k ((testBit_keysMask _ _).2 ⟨k, hk, rfl⟩)), fun ks hks => ?_⟩
    simp only [hks] at g2
    exact hasToken_of_mask g2

end Verif.AI
