import Verif.Analysis.Domain
import Verif.Proofs.Terminate
/-! Bit masks and classes of tokens. -/
namespace Verif.AI

theorem Mask.le_has {a b : Mask} (h : a.le b = true) {i : Nat} (hi : a.testBit i = true) :
    b.testBit i = true := by
  have h' := Nat.eq_of_beq_eq_true h
  rw [← h'] at hi
  rw [Nat.testBit_and] at hi
  simp at hi
  exact hi.2

theorem testBit_bit (i j : Nat) : (bit i).testBit j = decide (i = j) := by
  unfold bit
  rw [Nat.one_shiftLeft, Nat.testBit_two_pow]

theorem testBit_kwMask (ks : List Kw) (i : Nat) :
    (kwMask ks).testBit i = true ↔ ∃ k ∈ ks, k.ctorIdx = i := by
  induction ks with
  | nil => simp [kwMask]
  | cons k ks ih => simp [kwMask, Nat.testBit_or, testBit_bit, ih]

theorem testBit_keysMask (ks : List Key) (i : Nat) :
    (keysMask ks).testBit i = true ↔ ∃ k ∈ ks, k.ctorIdx = i := by
  induction ks with
  | nil => simp [keysMask]
  | cons k ks ih => simp [keysMask, kbit, Nat.testBit_or, testBit_bit, ih]

theorem nodeType_get : ∀ a ∈ NodeType.all, NodeType.all[a.ctorIdx]? = some a := by decide +kernel
theorem key_get : ∀ a ∈ Key.all, Key.all[a.ctorIdx]? = some a := by decide +kernel
theorem kw_get : ∀ a ∈ Kw.all, Kw.all[a.ctorIdx]? = some a := by decide +kernel
theorem mem_nodeType_all (a : NodeType) : a ∈ NodeType.all := by cases a <;> decide +kernel
theorem mem_key_all (a : Key) : a ∈ Key.all := by cases a <;> decide +kernel
theorem mem_kw_all (a : Kw) : a ∈ Kw.all := by cases a <;> decide +kernel

theorem nodeType_inj {a b : NodeType} (h : a.ctorIdx = b.ctorIdx) : a = b := by
  have h1 := nodeType_get a (mem_nodeType_all a)
  rw [h, nodeType_get b (mem_nodeType_all b)] at h1
  exact (Option.some.inj h1).symm

theorem key_inj {a b : Key} (h : a.ctorIdx = b.ctorIdx) : a = b := by
  have h1 := key_get a (mem_key_all a)
  rw [h, key_get b (mem_key_all b)] at h1
  exact (Option.some.inj h1).symm

theorem kw_inj {a b : Kw} (h : a.ctorIdx = b.ctorIdx) : a = b := by
  have h1 := kw_get a (mem_kw_all a)
  rw [h, kw_get b (mem_kw_all b)] at h1
  exact (Option.some.inj h1).symm

theorem tyEq_iff {a b : NodeType} : tyEq a b = true ↔ a = b := by
  unfold tyEq
  constructor
  · intro h; exact nodeType_inj (Nat.eq_of_beq_eq_true h)
  · rintro rfl; exact Nat.beq_refl _

theorem key_beq {a b : Key} : Nat.beq a.ctorIdx b.ctorIdx = true ↔ a = b := by
  constructor
  · intro h; exact key_inj (Nat.eq_of_beq_eq_true h)
  · rintro rfl; exact Nat.beq_refl _

/-- Class of a literal in upper case. -/
def clsOf (s : Str) : Nat :=
  match Kw.all.find? fun k => s == k.lit with
  | some k => k.ctorIdx
  | none => OTHER

/-- Class of a token. -/
def cls (U : Unicode) (t : Token) : Nat := clsOf (t.upper U)

/-- Class of the token of a node. -/
def nodeCls (U : Unicode) (n : Node) : Nat :=
  match n.tok with
  | some t => cls U t
  | none => NOTOK

theorem kw_idx_lt : ∀ k ∈ Kw.all, k.ctorIdx < OTHER := by decide +kernel

theorem clsOf_lit : ∀ k ∈ Kw.all, clsOf k.lit = k.ctorIdx := by decide +kernel

theorem clsOf_lt (s : Str) : clsOf s < 301 := by
  unfold clsOf
  split
  · next k _ => have := kw_idx_lt k (mem_kw_all k); unfold OTHER at this; omega
  · decide

theorem clsOf_eq {s : Str} {k : Kw} : clsOf s = k.ctorIdx ↔ s = k.lit := by
  constructor
  · intro h
    unfold clsOf at h
    split at h
    · next k' hk =>
      have := kw_inj h
      subst this
      simpa using List.find?_some hk
    · have := kw_idx_lt k (mem_kw_all k)
      omega
  · rintro rfl; exact clsOf_lit k (mem_kw_all k)

theorem cls_lt (U : Unicode) (t : Token) : cls U t < 301 := clsOf_lt _

theorem testBit_TOP {i : Nat} (h : i < 301) : TOP.testBit i = true := by
  unfold TOP
  rw [Nat.testBit_two_pow_sub_one]
  simpa using h

theorem inKws_iff (U : Unicode) (t : Token) (ks : List Kw) :
    t.inKws U ks = true ↔ (kwMask ks).testBit (cls U t) = true := by
  rw [testBit_kwMask]
  unfold Token.inKws cls
  simp only [List.any_eq_true, beq_iff_eq]
  constructor
  · rintro ⟨k, hk, h⟩; exact ⟨k, hk, (clsOf_eq.2 h).symm⟩
  · rintro ⟨k, hk, h⟩; exact ⟨k, hk, clsOf_eq.1 h.symm⟩

theorem not_inKws (U : Unicode) (t : Token) (ks : List Kw) (h : t.inKws U ks = false) :
    (TOP ^^^ kwMask ks).testBit (cls U t) = true := by
  rw [Nat.testBit_xor, testBit_TOP (cls_lt U t)]
  have : (kwMask ks).testBit (cls U t) = false := by
    rw [← Bool.not_eq_true, ← inKws_iff, h]; simp
  simp [this]

theorem lit_upper : ∀ k ∈ Kw.all, (k.lit.all fun c => decide (c.toNat < 128) && c.toUpper == c) = true := by
  decide +kernel

theorem upper_fixed {U : Unicode} (hU : U.Lawful) {s : Str}
    (h : (s.all fun c => decide (c.toNat < 128) && c.toUpper == c) = true) : U.upper s = s := by
  unfold Unicode.upper
  induction s with
  | nil => rfl
  | cons c s ih =>
    simp only [List.all_cons, Bool.and_eq_true, decide_eq_true_eq, beq_iff_eq] at h
    rw [List.flatMap_cons, hU.upper_ascii c h.1.1, h.1.2, ih h.2]
    rfl

theorem upper_lit {U : Unicode} (hU : U.Lawful) (k : Kw) : U.upper k.lit = k.lit :=
  upper_fixed hU (lit_upper k (mem_kw_all k))

theorem sym_chars : ∀ k ∈ Kw.all, isSym k = true →
    (k.lit.all fun c => decide (c.toNat < 128) && !(decide ('A' ≤ c) && decide (c ≤ 'Z'))) = true := by
  decide +kernel

theorem upper_sym_eq {U : Unicode} (hU : U.Lawful) {s l : Str} (h : U.upper s = l)
    (hl : (l.all fun c => decide (c.toNat < 128) && !(decide ('A' ≤ c) && decide (c ≤ 'Z'))) = true) :
    s = l := by
  unfold Unicode.upper at h
  induction s generalizing l with
  | nil => simpa using h
  | cons c s ih =>
    rw [List.flatMap_cons] at h
    subst h
    rw [List.all_append, Bool.and_eq_true] at hl
    have h1 : ∀ d ∈ U.toUpper c, c = d ∧ d.toNat < 128 := by
      intro d hd
      have := List.all_eq_true.1 hl.1 d hd
      simp only [Bool.and_eq_true, decide_eq_true_eq, Bool.not_eq_eq_eq_not, Bool.not_true,
        Bool.and_eq_false_iff, decide_eq_false_iff_not] at this
      refine ⟨hU.upper_sym c d hd this.1 ?_, this.1⟩
      rintro ⟨ha, hb⟩
      rcases this.2 with h | h
      · exact h ha
      · exact h hb
    have hne := hU.upper_ne_nil c
    obtain ⟨d, hd⟩ := List.exists_mem_of_ne_nil _ hne
    have hc : c.toNat < 128 := by obtain ⟨rfl, h⟩ := h1 d hd; exact h
    have hup := hU.upper_ascii c hc
    have h2 : c = c.toUpper := (h1 c.toUpper (by rw [hup]; simp)).1
    rw [hup, ← h2]
    have := ih (l := s.flatMap U.toUpper) rfl hl.2
    rw [← this]
    rfl

theorem raw_true {U : Unicode} (hU : U.Lawful) {t : Token} {ks : List Kw}
    (h : (ks.any fun k => t.literal == k.lit) = true) : (kwMask ks).testBit (cls U t) = true := by
  rw [testBit_kwMask]
  simp only [List.any_eq_true, beq_iff_eq] at h
  obtain ⟨k, hk, h⟩ := h
  refine ⟨k, hk, Eq.symm ?_⟩
  unfold cls Token.upper
  rw [h, upper_lit hU]
  exact clsOf_lit k (mem_kw_all k)

theorem raw_false {U : Unicode} (hU : U.Lawful) {t : Token} {ks : List Kw}
    (h : (ks.any fun k => t.literal == k.lit) = false) (hs : ks.all isSym = true) :
    (TOP ^^^ kwMask ks).testBit (cls U t) = true := by
  apply not_inKws
  rw [← Bool.not_eq_true]
  intro h'
  unfold Token.inKws at h'
  simp only [List.any_eq_true, beq_iff_eq] at h'
  obtain ⟨k, hk, h'⟩ := h'
  have := upper_sym_eq hU h' (sym_chars k (mem_kw_all k) (List.all_eq_true.1 hs k hk))
  rw [← Bool.not_eq_true] at h
  apply h
  simp only [List.any_eq_true, beq_iff_eq]
  exact ⟨k, hk, this⟩

end Verif.AI
