import Verif.Model.Basic
/-! The sample Unicode tables satisfy the assumed laws. -/
namespace Verif

theorem Char.ofNat_sub32 (c : Char) (h : 'a' ≤ c ∧ c ≤ 'z') : 'A' ≤ c.toUpper ∧ c.toUpper ≤ 'Z' := by
  have h1 : (97 : Nat) ≤ c.toNat := h.1
  have h2 : c.toNat ≤ 122 := h.2
  have key : ∀ n, n < 123 → 97 ≤ n → 'A' ≤ (Char.ofNat n).toUpper ∧ (Char.ofNat n).toUpper ≤ 'Z' := by decide
  have := key c.toNat (by omega) h1
  simpa using this

theorem Char.toUpper_eq_self (c : Char) (h : ¬ ('a' ≤ c ∧ c ≤ 'z')) : c.toUpper = c := by
  unfold Char.toUpper
  split
  · rename_i hh
    exact absurd hh h
  · rfl

theorem Unicode.sample_lawful : Unicode.sample.Lawful where
  alpha_ascii := by
    intro c hc
    have h1 : c ≠ 'ſ' := by rintro rfl; revert hc; decide
    have h2 : c ≠ 'ß' := by rintro rfl; revert hc; decide
    simp [Unicode.sample, beq_eq_false_iff_ne.2 h1, beq_eq_false_iff_ne.2 h2]
  alpha_not_ws := by
    intro c hc
    simp only [Unicode.sample, isAsciiLetter, Bool.or_eq_true, Bool.and_eq_true, decide_eq_true_eq,
      beq_iff_eq] at hc
    rcases hc with ((⟨h1, h2⟩ | ⟨h1, h2⟩) | rfl) | rfl
    · have h1 : (97 : Nat) ≤ c.toNat := h1
      have h2 : c.toNat ≤ 122 := h2
      simp only [isWhitespaceChar, Bool.or_eq_false_iff, Bool.and_eq_false_iff, decide_eq_false_iff_not,
        beq_eq_false_iff_ne]
      omega
    · have h1 : (65 : Nat) ≤ c.toNat := h1
      have h2 : c.toNat ≤ 90 := h2
      simp only [isWhitespaceChar, Bool.or_eq_false_iff, Bool.and_eq_false_iff, decide_eq_false_iff_not,
        beq_eq_false_iff_ne]
      omega
    · decide
    · decide
  upper_ascii := by
    intro c hc
    have h1 : c ≠ 'ſ' := by rintro rfl; revert hc; decide
    have h2 : c ≠ 'ß' := by rintro rfl; revert hc; decide
    simp [Unicode.sample, h1, h2]
  upper_ne_nil := by
    intro c
    simp only [Unicode.sample]
    split
    · simp
    · split <;> simp
  upper_sym := by
    intro c d hd _ hncap
    simp only [Unicode.sample] at hd
    split at hd
    · simp at hd; subst hd; exact absurd (by decide) hncap
    · split at hd
      · simp at hd; subst hd; exact absurd (by decide) hncap
      · simp at hd
        by_cases h : 'a' ≤ c ∧ c ≤ 'z'
        · subst hd; exact absurd (Char.ofNat_sub32 c h) hncap
        · rw [hd, Char.toUpper_eq_self c h]

end Verif
