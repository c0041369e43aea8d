import Verif.Proofs.LexerRun
/-! Shape of number tokens, numeric and identifier classification. -/
namespace Verif
open Verif.Spec

namespace Lex

theorem digits_spanP (s : Str) : Digits (spanP isDigitChar s).1 := spanP_fst_all _ _

theorem readFraction_shape (s : Str) :
    ((readFraction s).1 = [] ∧ (readFraction s).2 = s ∧ s.head? ≠ some '.') ∨
    (∃ fs, (readFraction s).1 = '.' :: fs ∧ Digits fs ∧
      ∀ c r, (readFraction s).2 = c :: r → isDigitChar c = false) := by
  unfold readFraction
  split
  · rename_i r
    right
    exact ⟨_, rfl, digits_spanP r, spanP_snd_head _ _⟩
  · rename_i hne
    left
    refine ⟨rfl, rfl, ?_⟩
    cases s with
    | nil => simp
    | cons c r =>
      simp
      rintro rfl
      exact hne r rfl

theorem readExponent_shape (s : Str) :
    ((readExponent s).1 = [] ∧ (readExponent s).2 = s ∧ s.head? ≠ some 'e' ∧ s.head? ≠ some 'E') ∨
    (∃ e sign ds, (readExponent s).1 = e :: (sign ++ ds) ∧ (e = 'e' ∨ e = 'E') ∧
      (sign = [] ∨ sign = ['+'] ∨ sign = ['-']) ∧ Digits ds ∧
      (∀ c r, (readExponent s).2 = c :: r → isDigitChar c = false) ∧
      (sign = [] → ds = [] → (readExponent s).2.head? ≠ some '+' ∧ (readExponent s).2.head? ≠ some '-')) := by
  unfold readExponent
  split
  · rename_i c r
    split
    · rename_i hc
      right
      refine ⟨c, (readSign r).1, (spanP isDigitChar (readSign r).2).1, rfl, hc.symm, ?_,
        digits_spanP _, spanP_snd_head _ _, ?_⟩
      · unfold readSign
        split
        · split
          · rename_i h
            rcases h with rfl | rfl <;> simp
          · simp
        · simp
      · intro h1 h2
        have h3 : (readSign r).2 = r := by
          have := readSign_split r
          rw [h1] at this
          simpa using this
        have h4 := spanP_append isDigitChar (readSign r).2
        rw [h2, h3] at h4
        simp at h4
        rw [h3, h4]
        unfold readSign at h1
        split at h1
        · split at h1
          · simp at h1
          · rename_i h
            simpa using not_or.1 h
        · simp
    · rename_i hc
      left
      have := not_or.1 hc
      exact ⟨rfl, rfl, by simpa using this.2, by simpa using this.1⟩
  · left; simp

/-- Maximal munch shape of a number. -/
theorem readNumber_shape (s : Str) :
    ∃ ds frac exp, (readNumber s).1 = ds ++ frac ++ exp ∧ Digits ds ∧
      (frac = [] ∨ ∃ fs, frac = '.' :: fs ∧ Digits fs) ∧ (exp = [] ∨ ExponentText exp) ∧
      (∀ c r, (readNumber s).2 = c :: r → isDigitChar c = false) ∧
      (exp = [] → (readNumber s).2.head? ≠ some 'e' ∧ (readNumber s).2.head? ≠ some 'E') ∧
      (frac = [] → exp = [] → (readNumber s).2.head? ≠ some '.') ∧
      (exp.length = 1 → (readNumber s).2.head? ≠ some '+' ∧ (readNumber s).2.head? ≠ some '-') := by
  unfold readNumber
  simp only
  have h0 := spanP_snd_head isDigitChar s
  refine ⟨_, _, _, rfl, digits_spanP s, ?_, ?_, ?_, ?_, ?_, ?_⟩
  · rcases readFraction_shape (spanP isDigitChar s).2 with ⟨h, _⟩ | ⟨fs, h1, h2, _⟩
    · exact .inl h
    · exact .inr ⟨fs, h1, h2⟩
  · rcases readExponent_shape (readFraction (spanP isDigitChar s).2).2 with ⟨h, _⟩ | ⟨e, sg, ds, h1, h2, h3, h4, _⟩
    · exact .inl h
    · exact .inr ⟨e, sg, ds, h1, h2, h3, h4⟩
  · rcases readExponent_shape (readFraction (spanP isDigitChar s).2).2 with ⟨h, h', _⟩ | ⟨e, sg, ds, h1, h2, h3, h4, h5, _⟩
    · rw [h']
      rcases readFraction_shape (spanP isDigitChar s).2 with ⟨k1, k2, _⟩ | ⟨fs, k1, k2, k3⟩
      · rw [k2]; exact h0
      · exact k3
    · exact h5
  · intro he
    rcases readExponent_shape (readFraction (spanP isDigitChar s).2).2 with ⟨h, h', h''⟩ | ⟨e, sg, ds, h1, _⟩
    · rw [h']; exact h''
    · rw [he] at h1; simp at h1
  · intro hf he
    rcases readExponent_shape (readFraction (spanP isDigitChar s).2).2 with ⟨h, h', h''⟩ | ⟨e, sg, ds, h1, _⟩
    · rw [h']
      rcases readFraction_shape (spanP isDigitChar s).2 with ⟨k1, k2, k3⟩ | ⟨fs, k1, k2, k3⟩
      · rw [k2]; exact k3
      · rw [hf] at k1; simp at k1
    · rw [he] at h1; simp at h1
  · intro he
    rcases readExponent_shape (readFraction (spanP isDigitChar s).2).2 with ⟨h, h', h''⟩ | ⟨e, sg, ds, h1, h2, h3, h4, h5, h6⟩
    · rw [h] at he; simp at he
    · rw [h1] at he
      simp at he
      exact h6 he.1 he.2

end Lex

theorem expPart_iff (s : Str) : Token.expPart s = true ↔
    (s = [] ∨ ∃ c sign ds, s = c :: (sign ++ ds) ∧ (c = 'e' ∨ c = 'E') ∧
      (sign = [] ∨ sign = ['+'] ∨ sign = ['-']) ∧ Digits ds ∧ ds ≠ []) := by
  cases s with
  | nil => simp [Token.expPart]
  | cons c cs =>
    simp only [Token.expPart, Bool.and_eq_true, Bool.or_eq_true, beq_iff_eq]
    constructor
    · rintro ⟨hc, h⟩
      right
      cases cs with
      | nil => simp at h
      | cons d ds =>
        simp only at h
        split at h
        · rename_i hd
          simp at h
          refine ⟨c, [d], ds, rfl, hc, ?_, fun x hx => h.2 x hx, ?_⟩
          · rcases hd with rfl | rfl <;> simp
          · simpa using h.1
        · simp at h
          exact ⟨c, [], d :: ds, rfl, hc, .inl rfl, fun x hx => by
            rcases List.mem_cons.1 hx with rfl | hx
            · exact h.1
            · exact h.2 x hx, by simp⟩
    · rintro (h | ⟨c', sign, ds, h, hc, hs, hd, hne⟩)
      · simp at h
      · simp at h
        obtain ⟨rfl, rfl⟩ := h
        refine ⟨hc, ?_⟩
        rcases hs with rfl | rfl | rfl
        · cases ds with
          | nil => exact absurd rfl hne
          | cons d ds =>
            have h1 : d ≠ '+' := by rintro rfl; have := hd '+' (by simp); revert this; decide
            have h2 : d ≠ '-' := by rintro rfl; have := hd '-' (by simp); revert this; decide
            simp [h1, h2]
            exact ⟨hd d (by simp), fun x hx => hd x (by simp [hx])⟩
        · simpa using ⟨hne, fun x hx => hd x hx⟩
        · simpa using ⟨hne, fun x hx => hd x hx⟩

theorem takeWhile_digits (ds r : Str) (h : Digits ds) (hr : ∀ c t, r = c :: t → isDigitChar c = false) :
    (ds ++ r).takeWhile isDigitChar = ds ∧ (ds ++ r).dropWhile isDigitChar = r := by
  induction ds with
  | nil =>
    cases r with
    | nil => simp
    | cons c t => simp [hr c t rfl]
  | cons d ds ih =>
    have h1 := h d (by simp)
    have := ih (fun x hx => h x (by simp [hx]))
    simp [h1, this]

theorem digits_takeWhile (s : Str) : Digits (s.takeWhile isDigitChar) := by
  intro c hc
  have := List.all_takeWhile (p := isDigitChar) (l := s)
  exact List.all_eq_true.1 this c hc

theorem isNumeric_iff (t : Token) : t.isNumeric = true ↔ NumericSyntax t.literal := by
  unfold Token.isNumeric NumericSyntax
  simp only
  have hsplit : t.literal = t.literal.takeWhile isDigitChar ++ t.literal.dropWhile isDigitChar := by simp
  constructor
  · intro h
    split at h
    · rename_i r' heq
      simp only [Bool.and_eq_true, Bool.not_eq_true', List.isEmpty_eq_false_iff, expPart_iff] at h
      refine ⟨t.literal.takeWhile isDigitChar ++ '.' :: r'.takeWhile isDigitChar,
        r'.dropWhile isDigitChar, ?_, .inr ⟨_, _, rfl, digits_takeWhile _, digits_takeWhile _, h.1⟩, h.2⟩
      conv => lhs; rw [hsplit, heq]
      simp
    · simp only [Bool.and_eq_true, Bool.not_eq_true', List.isEmpty_eq_false_iff, expPart_iff] at h
      exact ⟨_, _, hsplit, .inl ⟨h.1, digits_takeWhile _⟩, h.2⟩
  · rintro ⟨m, e, hl, hm, he⟩
    have hexp : Token.expPart e = true := (expPart_iff e).2 he
    have hend : ∀ c t, e = c :: t → isDigitChar c = false ∧ c ≠ '.' := by
      intro c t hct
      rcases he with he | ⟨c', sg, ds, he, hc, _⟩
      · rw [he] at hct; simp at hct
      · rw [he] at hct
        simp at hct
        rcases hc with rfl | rfl <;> · rw [← hct.1]; decide
    rcases hm with ⟨hne, hd⟩ | ⟨ds, fs, rfl, hd, hf, hne⟩
    · obtain ⟨k1, k2⟩ := takeWhile_digits m e hd (fun c t h => (hend c t h).1)
      rw [hl, k1, k2]
      split
      · rename_i r' 
        exact absurd rfl (hend '.' r' rfl).2
      · simp [hne, hexp]
    · have : t.literal = ds ++ ('.' :: (fs ++ e)) := by rw [hl]; simp
      obtain ⟨k1, k2⟩ := takeWhile_digits ds ('.' :: (fs ++ e)) hd (by
        intro c t h; simp at h; rw [← h.1]; decide)
      rw [this, k1, k2]
      obtain ⟨j1, j2⟩ := takeWhile_digits fs e hf (fun c t h => (hend c t h).1)
      simp only [j1, j2]
      simp [hne, hexp]

theorem byteLen_append (a b : Str) : Token.byteLen (a ++ b) = Token.byteLen a + Token.byteLen b := by
  induction a with
  | nil => simp [Token.byteLen]
  | cons c a ih => simp [Token.byteLen, ih]; omega

theorem quotedBy_iff (t : Token) (q : Char) (hq : q.utf8Size = 1) :
    t.quotedBy q = true ↔ ∃ body, t.literal = q :: (body ++ [q]) := by
  unfold Token.quotedBy
  constructor
  · intro h
    split at h
    · simp at h
    · rename_i hlen
      simp only [Bool.and_eq_true, beq_iff_eq] at h
      obtain ⟨h1, h2⟩ := h
      cases hl : t.literal with
      | nil => rw [hl] at h1; simp at h1
      | cons c cs =>
        rw [hl] at h1 h2 hlen
        simp at h1
        subst h1
        cases hcs : cs with
        | nil => rw [hcs] at hlen; simp [Token.byteLen, hq] at hlen
        | cons d ds =>
          rw [hcs, List.getLast?_cons_cons] at h2
          have hne : (d :: ds) ≠ [] := by simp
          rw [List.getLast?_eq_some_getLast hne] at h2
          simp only [Option.some.injEq] at h2
          refine ⟨(d :: ds).dropLast, ?_⟩
          conv => lhs; rw [← List.dropLast_concat_getLast hne, h2]
  · rintro ⟨body, hl⟩
    rw [hl]
    have : ¬ Token.byteLen (q :: (body ++ [q])) < 2 := by
      simp [Token.byteLen, byteLen_append, hq]; omega
    rw [if_neg this]
    simp only [List.head?_cons, Bool.and_eq_true, beq_iff_eq, true_and]
    rw [← List.cons_append, List.getLast?_concat]

end Verif
