import Verif.Proofs.LexerRun
import Verif.Proofs.LexerClass
import Verif.Spec.Lexeme
/-! The readers of the lexer accept exactly the literals of `Spec.Lexeme`. -/
namespace Verif.Lex
open Verif.Spec

theorem identStart_iff (U : Unicode) (c : Char) : identStart U c = true ↔ StartsWord U c := by
  simp [identStart, StartsWord]

theorem identChar_iff (U : Unicode) (c : Char) : identChar U c = true ↔ InWord U c := by
  simp [identChar, InWord, or_assoc]

theorem identChar_false (U : Unicode) (c : Char) : identChar U c = false ↔ ¬ InWord U c := by
  rw [← identChar_iff]; simp

/-! ### Back quotes, block comments, templates -/

theorem throughChar_complete (q : Char) (body rest : Str) (h : q ∉ body) :
    throughChar q (body ++ q :: rest) = some (body ++ [q], rest) := by
  induction body with
  | nil => simp [throughChar]
  | cons c body ih =>
    have h1 : c ≠ q := by rintro rfl; simp at h
    have h2 : q ∉ body := fun hh => h (by simp [hh])
    simp [throughChar, h1, ih h2]

theorem readBackQuoted_complete (l rest : Str) (h : QuotedName l) :
    readBackQuoted (l ++ rest) = some (l, rest) := by
  obtain ⟨body, rfl, h2⟩ := h
  simp [readBackQuoted, throughChar_complete '`' body rest h2]

theorem readMultilineComment_complete (rest : Str) : ∀ l : Str, (∃ body, l = body ++ ['*', '/']) →
    (∀ x y, l = x ++ '*' :: '/' :: y → y = []) → readMultilineComment (l ++ rest) = some (l, rest) := by
  intro l
  induction l with
  | nil => rintro ⟨body, hb⟩; simp at hb
  | cons c cs ih =>
    rintro ⟨body, hb⟩ hmin
    unfold readMultilineComment
    simp only [List.cons_append]
    cases body with
    | nil =>
      simp at hb
      obtain ⟨rfl, rfl⟩ := hb
      simp
    | cons e body =>
      simp at hb
      obtain ⟨rfl, hb⟩ := hb
      have hnot : ¬ (c = '*' ∧ (cs ++ rest).head? = some '/') := by
        rintro ⟨rfl, h2⟩
        cases cs with
        | nil => cases body <;> simp at hb
        | cons d cs =>
          simp at h2
          subst h2
          have := hmin [] cs rfl
          subst this
          cases body with
          | nil => simp at hb
          | cons e body => cases body <;> simp at hb
      rw [if_neg hnot, ih ⟨body, hb⟩ (fun x y hxy => hmin (c :: x) y (by simp [hxy]))]

theorem startsBraces_replicate (n : Nat) (r : Str) : startsBraces n (List.replicate n '}' ++ r) = true := by
  induction n with
  | zero => simp [startsBraces]
  | succ n ih => simp [startsBraces, List.replicate_succ, ih]

theorem templateLoop_complete (n : Nat) (rest : Str) : ∀ (cs : Str) (c : Char),
    (∀ x y, cs ++ List.replicate n '}' = x ++ List.replicate n '}' ++ y → cs.length ≤ x.length) →
    templateLoop n (c :: cs ++ List.replicate n '}' ++ rest) =
      some (c :: cs ++ List.replicate n '}', rest) := by
  intro cs
  induction cs with
  | nil =>
    intro c _
    simp [templateLoop, startsBraces_replicate]
  | cons e cs ih =>
    intro c hmin
    have hnot : ¬ startsBraces n (e :: cs ++ List.replicate n '}' ++ rest) = true := by
      intro hs
      obtain ⟨h1, h2⟩ := startsBraces_split _ _ hs
      have h3 : (e :: cs ++ List.replicate n '}' ++ rest).take n = (e :: cs ++ List.replicate n '}').take n := by
        rw [List.take_append_of_le_length (by simp; omega)]
      rw [h3] at h1
      have := hmin [] ((e :: cs ++ List.replicate n '}').drop n) (by
        conv => lhs; rw [← List.take_append_drop n (e :: cs ++ List.replicate n '}'), h1]
        simp)
      simp at this
    have := ih e (fun x y hxy => by
      have := hmin (e :: x) y (by simp at hxy ⊢; exact hxy)
      simpa using this)
    show templateLoop n (c :: (e :: cs ++ List.replicate n '}' ++ rest)) = _
    unfold templateLoop
    rw [if_neg hnot, this]
    simp

theorem templateLoop_min (n : Nat) (s a b : Str) (h : templateLoop n s = some (a, b)) :
    a ++ b = s ∧ ∃ c cs, a = c :: cs ++ List.replicate n '}' ∧
      ∀ x y, cs ++ List.replicate n '}' = x ++ List.replicate n '}' ++ y → cs.length ≤ x.length := by
  refine ⟨(templateLoop_split n s a b h).1, ?_⟩
  induction s generalizing a b with
  | nil => simp [templateLoop] at h
  | cons c cs ih =>
    unfold templateLoop at h
    split at h
    · rename_i hc
      simp at h; obtain ⟨rfl, rfl⟩ := h
      exact ⟨c, [], by simp [(startsBraces_split _ _ hc).1], by simp⟩
    · rename_i hc
      split at h
      · rename_i a' b' h'
        simp at h; obtain ⟨rfl, rfl⟩ := h
        obtain ⟨e, es, h1, h2⟩ := ih _ _ h'
        have hsplit := (templateLoop_split n cs a' b' h').1
        refine ⟨c, e :: es, by simp [h1], ?_⟩
        intro x y hxy
        cases x with
        | nil =>
          exfalso
          apply hc
          rw [← hsplit, h1, hxy]
          simp only [List.nil_append, List.append_assoc]
          exact startsBraces_replicate n _
        | cons f x =>
          simp only [List.cons_append, List.cons.injEq] at hxy
          have := h2 x y (by simp [hxy.2])
          simpa using this
      · simp at h

/-! ### Numbers -/

theorem notBefore_digit {rest : Str} (h : NotBefore (fun c => isDigitChar c = true) rest) :
    ∀ c r, rest = c :: r → isDigitChar c = false := by
  intro c r hr
  simpa using h c r hr

theorem readNumber_complete (l rest : Str) (h : NumberBefore l rest) : readNumber (l ++ rest) = (l, rest) := by
  obtain ⟨ds, frac, exp, rfl, hds, hfrac, hexp, h0, h1, h2, h3, h4⟩ := h
  have h1 := notBefore_digit h1
  have de : isDigitChar 'e' = false := by decide
  have dE : isDigitChar 'E' = false := by decide
  have dd : isDigitChar '.' = false := by decide
  have dp : isDigitChar '+' = false := by decide
  have dm : isDigitChar '-' = false := by decide
  have hexp0 : ∀ c r, exp ++ rest = c :: r → isDigitChar c = false := by
    intro c r hcr
    rcases hexp with rfl | ⟨e, sign, es, rfl, he, -, -⟩
    · exact h1 c r hcr
    · simp at hcr
      rw [← hcr.1]
      rcases he with rfl | rfl
      · exact de
      · exact dE
  have hfrac0 : ∀ c r, frac ++ (exp ++ rest) = c :: r → isDigitChar c = false := by
    intro c r hcr
    rcases hfrac with rfl | ⟨fs, rfl, -⟩
    · exact hexp0 c r hcr
    · simp at hcr
      rw [← hcr.1]
      exact dd
  have e1 : spanP isDigitChar (ds ++ (frac ++ (exp ++ rest))) = (ds, frac ++ (exp ++ rest)) :=
    spanP_of_all _ _ _ hds hfrac0
  have e2 : readFraction (frac ++ (exp ++ rest)) = (frac, exp ++ rest) := by
    rcases hfrac with rfl | ⟨fs, rfl, hfs⟩
    · have hne : ∀ r, exp ++ rest ≠ '.' :: r := by
        intro r hr
        rcases hexp with rfl | ⟨e, sign, es, rfl, he, -, -⟩
        · exact h3 rfl rfl '.' r hr rfl
        · simp at hr
          rcases he with rfl | rfl <;> simp at hr
      unfold readFraction
      simp only [List.nil_append]
    · simp only [readFraction, List.cons_append]
      rw [spanP_of_all _ _ _ hfs hexp0]
  have e3 : readExponent (exp ++ rest) = (exp, rest) := by
    rcases hexp with rfl | ⟨e, sign, es, rfl, he, hs, hes⟩
    · unfold readExponent
      cases rest with
      | nil => rfl
      | cons c r =>
        have := h2 rfl c r rfl
        have hn : ¬ (c = 'E' ∨ c = 'e') := fun hh => this hh.symm
        simp [hn]
    · have he' : e = 'E' ∨ e = 'e' := he.symm
      have hsign : readSign (sign ++ (es ++ rest)) = (sign, es ++ rest) := by
        rcases hs with rfl | rfl | rfl
        · simp only [List.nil_append]
          cases es with
          | nil =>
            cases rest with
            | nil => rfl
            | cons c r =>
              have := h4 (by simp) c r rfl
              simp [readSign, this]
          | cons c es =>
            have hc := hes c (by simp)
            have n1 : c ≠ '+' := by rintro rfl; simp [dp] at hc
            have n2 : c ≠ '-' := by rintro rfl; simp [dm] at hc
            simp [readSign, n1, n2]
        · simp [readSign]
        · simp [readSign]
      simp only [List.cons_append, List.append_assoc, readExponent, if_pos he']
      rw [hsign]
      simp only
      rw [spanP_of_all _ _ _ hes h1]
  simp only [readNumber, List.append_assoc]
  rw [e1]
  simp only
  rw [e2]
  simp only
  rw [e3]

theorem readNumber_sound (s l rest : Str) (h : readNumber s = (l, rest))
    (hs : (∃ c r, s = c :: r ∧ isDigitChar c = true) ∨ ∃ c r, s = '.' :: c :: r ∧ isDigitChar c = true) :
    NumberBefore l rest := by
  obtain ⟨ds, frac, exp, h1, h2, h3, h4, h5, h6, h7, h8⟩ := readNumber_shape s
  have hsplit := readNumber_split s
  rw [h] at h1 h5 h6 h7 h8 hsplit
  simp only at h1 h5 h6 h7 h8 hsplit
  have HD : ∀ d, rest.head? ≠ some d → NotBefore (fun c => c = d) rest := by
    intro d hd c r hr hc
    subst hr; subst hc
    exact hd rfl
  refine ⟨ds, frac, exp, h1, h2, h3, h4, ?_, ?_, ?_, ?_, ?_⟩
  · rintro rfl
    have dd : isDigitChar '.' = false := by decide
    rcases hs with ⟨c, r, rfl, hc⟩ | ⟨c, r, rfl, hc⟩
    · exfalso
      rw [h1] at hsplit
      rcases h3 with rfl | ⟨fs, rfl, -⟩
      · rcases h4 with rfl | ⟨e, sign, es, rfl, he, -, -⟩
        · simp at hsplit
          exact absurd hc (by rw [h5 c r hsplit]; simp)
        · simp at hsplit
          rw [← hsplit.1] at hc
          rcases he with rfl | rfl <;> simp [show isDigitChar 'e' = false by decide, show isDigitChar 'E' = false by decide] at hc
      · simp at hsplit
        rw [← hsplit.1] at hc
        simp [dd] at hc
    · rw [h1] at hsplit
      rcases h3 with rfl | ⟨fs, rfl, hfs⟩
      · exfalso
        rcases h4 with rfl | ⟨e, sign, es, rfl, he, -, -⟩
        · simp at hsplit
          exact h7 rfl rfl (by rw [hsplit]; rfl)
        · simp at hsplit
          rcases he with rfl | rfl <;> simp at hsplit
      · cases fs with
        | cons f fs => exact ⟨f, fs, rfl⟩
        | nil =>
          exfalso
          rcases h4 with rfl | ⟨e, sign, es, rfl, he, -, -⟩
          · simp at hsplit
            exact absurd hc (by rw [h5 c r hsplit]; simp)
          · simp at hsplit
            rw [← hsplit.1] at hc
            rcases he with rfl | rfl <;> simp [show isDigitChar 'e' = false by decide, show isDigitChar 'E' = false by decide] at hc
  · intro c r hr
    simp [h5 c r hr]
  · intro he c r hr hc
    have := h6 he
    rcases hc with rfl | rfl
    · exact this.1 (by rw [hr]; rfl)
    · exact this.2 (by rw [hr]; rfl)
  · intro hf he
    exact HD _ (h7 hf he)
  · intro he c r hr hc
    have := h8 he
    rcases hc with rfl | rfl
    · exact this.1 (by rw [hr]; rfl)
    · exact this.2 (by rw [hr]; rfl)

/-! ### Line comments -/

theorem trimEnd_id (l : Str) (h : ∀ x c, l = x ++ [c] → isWhitespaceChar c = false) : trimEnd l = l := by
  obtain ⟨w, h1, h2⟩ := trimEnd_split l
  rcases List.eq_nil_or_concat w with rfl | ⟨w', c, rfl⟩
  · simpa using h1.symm
  · have h3 := h (trimEnd l ++ w') c (by
      conv => lhs; rw [h1]
      simp)
    have h4 := h2 c (by simp)
    rw [h3] at h4
    simp at h4

theorem readComment_complete (l rest : Str) (h : LineCommentBefore l rest) :
    ∃ w r, rest = w ++ r ∧ AllWs w ∧ readComment (l ++ rest) = (l ++ w, r) ∧ trimEnd (l ++ w) = l := by
  obtain ⟨-, h2, h3, w, r, rfl, h5, h6, h7⟩ := h
  refine ⟨w, r, rfl, h5, ?_, ?_⟩
  · rw [← List.append_assoc]
    apply spanP_of_all
    · intro c hc
      have : c ≠ '\n' := by
        rintro rfl
        rcases List.mem_append.1 hc with hc | hc
        · exact h2 hc
        · exact h6 hc
      simpa using this
    · intro c r' hr
      rcases h7 with rfl | ⟨r'', rfl⟩
      · simp at hr
      · simp at hr
        simp [← hr.1]
  · rw [trimEnd_append_ws _ _ h5, trimEnd_id l h3]

theorem readComment_sound (s : Str) (hs : IsLineComment (trimEnd (readComment s).1)) :
    ∃ w, (readComment s).1 = trimEnd (readComment s).1 ++ w ∧ AllWs w ∧
      LineCommentBefore (trimEnd (readComment s).1) (w ++ (readComment s).2) := by
  obtain ⟨w, h1, h2⟩ := trimEnd_split (readComment s).1
  have hall := spanP_fst_all (fun c => c != '\n') s
  have hno : '\n' ∉ (readComment s).1 := by
    intro hh
    have := hall '\n' hh
    simp at this
  refine ⟨w, h1, h2, hs, ?_, ?_, w, _, rfl, h2, ?_, ?_⟩
  · intro hh
    apply hno
    rw [h1]
    simp [hh]
  · intro x c hx
    exact trimEnd_last _ _ _ hx
  · intro hh
    apply hno
    rw [h1]
    simp [hh]
  · cases hr : (readComment s).2 with
    | nil => exact .inl rfl
    | cons c r =>
      have := spanP_snd_head (fun c => c != '\n') s c r hr
      simp at this
      subst this
      exact .inr ⟨r, rfl⟩

end Verif.Lex

namespace Verif.Lex
open Verif.Spec

/-! ### One token -/

theorem startsWord_ne {U : Unicode} (hU : U.Lawful) {c : Char} (h : StartsWord U c) (e : Char)
    (he : e.toNat < 128 ∧ isAsciiLetter e = false ∧ e ≠ '_') : c ≠ e := by
  rintro rfl
  rcases h with h | h
  · rw [hU.alpha_ascii _ he.1, he.2.1] at h
    simp at h
  · exact he.2.2 h

/-- Characters with an arm of their own in `readToken`. -/
def armed : List Char := ['.', '#', '`', '"', '\'', '-', '/', '|', '<', '>', '=', '!', '@', '{']

theorem readToken_default (U : Unicode) (d : Nat) (c : Char) (cs : Str) (h : c ∉ armed) :
    readToken U d c cs =
      if isDigitChar c then Read.exact (readNumber (c :: cs))
      else if identStart U c then Read.exact (readIdentifier U (c :: cs))
      else Read.chars 1 (c :: cs) := by
  simp only [armed, List.mem_cons, not_or] at h
  unfold readToken
  simp only
  split <;> first | rfl | (exfalso; simp_all)

theorem readIdentifier_complete (U : Unicode) (l rest : Str) (h : IsWordText U l)
    (stop : NotBefore (InWord U) rest) : readIdentifier U (l ++ rest) = (l, rest) := by
  obtain ⟨c, cs, rfl, h1, h2⟩ := h
  simp only [readIdentifier, List.cons_append]
  rw [spanP_of_all]
  · exact fun d hd => (identChar_iff U d).2 (h2 d hd)
  · exact fun d r hr => (identChar_false U d).2 (stop d r hr)

theorem readIdentifier_sound (U : Unicode) (c : Char) (cs : Str) (h : StartsWord U c) :
    IsWordText U (readIdentifier U (c :: cs)).1 ∧ NotBefore (InWord U) (readIdentifier U (c :: cs)).2 := by
  refine ⟨⟨c, _, rfl, h, fun d hd => (identChar_iff U d).1 (spanP_fst_all _ _ d hd)⟩, ?_⟩
  intro d r hr
  exact (identChar_false U d).1 (spanP_snd_head _ _ d r hr)

theorem digit_not_armed (c : Char) (h : isDigitChar c = true) : c ∉ armed := by
  intro hc
  simp only [armed, List.mem_cons, List.not_mem_nil, or_false] at hc
  rcases hc with rfl | rfl | rfl | rfl | rfl | rfl | rfl | rfl | rfl | rfl | rfl | rfl | rfl | rfl <;>
    exact absurd h (by decide)

theorem word_not_armed {U : Unicode} (hU : U.Lawful) (c : Char) (h : StartsWord U c) : c ∉ armed := by
  intro hc
  simp only [armed, List.mem_cons, List.not_mem_nil, or_false] at hc
  rcases hc with rfl | rfl | rfl | rfl | rfl | rfl | rfl | rfl | rfl | rfl | rfl | rfl | rfl | rfl <;>
    exact startsWord_ne hU h _ (by decide) rfl

theorem digit_not_word {U : Unicode} (hU : U.Lawful) (c : Char) (h : isDigitChar c = true) :
    ¬ StartsWord U c := by
  have h' := h
  simp only [isDigitChar, Bool.and_eq_true, decide_eq_true_eq, Char.le_def] at h
  have h1 : (48 : Nat) ≤ c.toNat := UInt32.le_iff_toNat_le.1 h.1
  have h2 : c.toNat ≤ 57 := UInt32.le_iff_toNat_le.1 h.2
  rintro (hw | rfl)
  · rw [hU.alpha_ascii c (by omega)] at hw
    simp only [isAsciiLetter, Bool.or_eq_true, Bool.and_eq_true, decide_eq_true_eq, Char.le_def] at hw
    rcases hw with hw | hw
    · have : (97 : Nat) ≤ c.toNat := UInt32.le_iff_toNat_le.1 hw.1
      omega
    · have : (65 : Nat) ≤ c.toNat := UInt32.le_iff_toNat_le.1 hw.1
      omega
  · exact absurd h' (by decide)

theorem word_not_ws {U : Unicode} (hU : U.Lawful) (c : Char) (h : StartsWord U c) :
    isWhitespaceChar c = false := by
  rcases h with h | rfl
  · exact hU.alpha_not_ws c h
  · decide

theorem digit_not_ws (c : Char) (h : isDigitChar c = true) : isWhitespaceChar c = false := by
  cases hw : isWhitespaceChar c with
  | false => rfl
  | true => rw [ws_not_digit c hw] at h; simp at h

/-- The outcome of reading a token that is exactly the literal. -/
def ReadsExact (U : Unicode) (d : Nat) (l rest : Str) : Prop :=
  ∃ c cs w rest', l ++ rest = c :: cs ∧ isWhitespaceChar c = false ∧ rest = w ++ rest' ∧ AllWs w ∧
    readToken U d c cs = .tok (l ++ w) l rest'

theorem readsExact {U : Unicode} {d : Nat} {l rest : Str} (c : Char) (cs : Str) (hl : l ++ rest = c :: cs)
    (hc : isWhitespaceChar c = false) (h : readToken U d c cs = .tok l l rest) : ReadsExact U d l rest :=
  ⟨c, cs, [], rest, hl, hc, rfl, by simp [AllWs], by simpa using h⟩

theorem spanP_replicate (e : Char) (n : Nat) (r : Str) (hr : ∀ c t, r = c :: t → c ≠ e) :
    spanP (fun c => c == e) (List.replicate n e ++ r) = (List.replicate n e, r) := by
  apply spanP_of_all
  · intro c hc
    simp [List.eq_of_mem_replicate hc]
  · intro c t ht
    simpa using hr c t ht

theorem all_eq_replicate (e : Char) (s : Str) (h : ∀ c ∈ s, (c == e) = true) : s = List.replicate s.length e :=
  List.eq_replicate_iff.2 ⟨rfl, fun c hc => by simpa using h c hc⟩

/-- Every token of the specification is read. -/
theorem lexeme_read {U : Unicode} (hU : U.Lawful) (d : Nat) {l rest : Str}
    (h : Lexeme U (decide (0 < d)) l rest) : ReadsExact U d l rest := by
  cases h with
  | word h stop =>
    have h' := readIdentifier_complete U l rest h stop
    obtain ⟨c, cs, rfl, h1, h2⟩ := h
    refine readsExact c (cs ++ rest) rfl (word_not_ws hU c h1) ?_
    rw [readToken_default _ _ _ _ (word_not_armed hU c h1)]
    have hd : isDigitChar c = false := by
      cases hd : isDigitChar c with
      | false => rfl
      | true => exact absurd h1 (digit_not_word hU c hd)
    simp only [List.cons_append] at h'
    simp [hd, (identStart_iff U c).2 h1, h', Read.exact]
  | number h =>
    have h' := readNumber_complete l rest h
    obtain ⟨ds, frac, exp, hl, hds, hfrac, hexp, h0, -⟩ := h
    cases ds with
    | nil =>
      obtain ⟨f, fs, hf⟩ := h0 rfl
      rcases hfrac with rfl | ⟨fs', rfl, hfs⟩
      · simp at hf
      · simp at hf
        subst hf
        have hfd := hfs f (by simp)
        refine readsExact '.' (f :: fs ++ exp ++ rest) (by simp [hl]) (by decide) ?_
        have e : l ++ rest = '.' :: f :: (fs ++ (exp ++ rest)) := by simp [hl]
        rw [e] at h'
        simp [readToken, hfd, Read.exact, h']
    | cons c ds =>
      have hc := hds c (by simp)
      refine readsExact c (ds ++ frac ++ exp ++ rest) (by simp [hl]) (digit_not_ws c hc) ?_
      rw [readToken_default _ _ _ _ (digit_not_armed c hc)]
      have e : l ++ rest = c :: (ds ++ (frac ++ (exp ++ rest))) := by simp [hl]
      rw [e] at h'
      simp [hc, Read.exact, h']
  | @string q l body rest hq h stop =>
    obtain ⟨rfl, h2, h3⟩ := h
    have hws : isWhitespaceChar q = false := by rcases hq with rfl | rfl <;> decide
    refine readsExact q (body ++ [q] ++ rest) (by simp) hws ?_
    have hread : ∀ cs, readToken U d q cs =
        (if cs.head? = some q ∧ cs.tail.head? = some q then Read.ofOption (q :: cs) (readMultilineString (q :: cs))
         else Read.ofOption (q :: cs) (readString (q :: cs))) := by
      intro cs
      rcases hq with rfl | rfl <;> rfl
    have hnot : ¬ ((body ++ [q] ++ rest).head? = some q ∧ (body ++ [q] ++ rest).tail.head? = some q) := by
      rintro ⟨e1, e2⟩
      cases body with
      | nil =>
        cases rest with
        | nil => simp at e2
        | cons c r =>
          simp at e2
          exact stop rfl c r rfl e2
      | cons c cs =>
        simp at e1
        subst e1
        have := h3 [] cs rfl
        revert this
        decide
    rw [hread, if_neg hnot]
    have := stringLoop_complete q body false (by rw [parity_spec]; exact h2)
      (fun x y hxy => by rw [parity_spec]; exact h3 x y hxy) rest
    simp [readString, this, Read.ofOption]
  | @string3 q l body rest hq h =>
    obtain ⟨rfl, h2, h3⟩ := h
    have hws : isWhitespaceChar q = false := by rcases hq with rfl | rfl <;> decide
    refine readsExact q (q :: q :: (body ++ [q, q, q]) ++ rest) (by simp) hws ?_
    have hread : ∀ cs, readToken U d q (q :: q :: cs) =
        Read.ofOption (q :: q :: q :: cs) (readMultilineString (q :: q :: q :: cs)) := by
      intro cs
      rcases hq with rfl | rfl <;> rfl
    have := multilineStringLoop_complete q body false (by rw [parity_spec]; exact h2)
      (fun x y hxy hlt => by rw [parity_spec]; exact h3 x y hxy hlt) rest
    simp only [List.cons_append, hread, readMultilineString, List.append_assoc, List.nil_append]
    rw [this]
    rfl
  | backQuoted h =>
    have h' := readBackQuoted_complete l rest h
    obtain ⟨body, rfl, -⟩ := h
    refine readsExact '`' (body ++ ['`'] ++ rest) (by simp) (by decide) ?_
    simp only [List.cons_append] at h'
    simp only [readToken, h', Read.ofOption]
  | lineComment h =>
    obtain ⟨w, r, hr, hw, h1, h2⟩ := readComment_complete l rest h
    obtain ⟨hc, -⟩ := h
    rcases hc with ⟨t, rfl⟩ | ⟨t, rfl⟩
    · refine ⟨'#', t ++ rest, w, r, rfl, by decide, hr, hw, ?_⟩
      rw [readToken_comment_shape _ _ _ _ (.inl rfl)]
      simp only [List.cons_append] at h1 h2
      simp only [List.cons_append, h1, h2]
    · refine ⟨'-', '-' :: t ++ rest, w, r, rfl, by decide, hr, hw, ?_⟩
      show readToken U d '-' ('-' :: (t ++ rest)) = _
      rw [readToken_comment_shape _ _ _ _ (.inr ⟨t ++ rest, rfl⟩)]
      simp only [List.cons_append] at h1 h2
      simp only [List.cons_append, h1, h2]
  | blockComment h =>
    obtain ⟨⟨r, rfl⟩, h2, h3⟩ := h
    have h' := readMultilineComment_complete rest _ h2 h3
    refine readsExact '/' ('*' :: r ++ rest) rfl (by decide) ?_
    simp only [List.cons_append] at h'
    simp [readToken, Read.ofOption, h']
  | @parameter n l rest hn h stop =>
    have h' := readIdentifier_complete U l rest h stop
    obtain ⟨c, cs, rfl, h1, h2⟩ := h
    obtain ⟨m, rfl⟩ : ∃ m, n = m + 1 := ⟨n - 1, by omega⟩
    refine readsExact '@' (List.replicate m '@' ++ (c :: cs) ++ rest)
      (by simp [List.replicate_succ]) (by decide) ?_
    have e : ('@' :: (List.replicate m '@' ++ (c :: cs) ++ rest)) =
        List.replicate (m + 1) '@' ++ (c :: (cs ++ rest)) := by simp [List.replicate_succ]
    have hsp := spanP_replicate '@' (m + 1) (c :: (cs ++ rest)) (fun e t he => by
      simp at he
      rw [← he.1]
      exact startsWord_ne hU h1 '@' (by decide))
    have hbq : c ≠ '`' := startsWord_ne hU h1 '`' (by decide)
    simp only [List.cons_append] at h'
    simp only [readToken, readParameter]
    rw [e, hsp]
    simp [hbq, (identStart_iff U c).2 h1, h']
  | @quotedParameter n l rest hn h =>
    have h' := readBackQuoted_complete l rest h
    obtain ⟨body, rfl, -⟩ := h
    obtain ⟨m, rfl⟩ : ∃ m, n = m + 1 := ⟨n - 1, by omega⟩
    refine readsExact '@' (List.replicate m '@' ++ ('`' :: (body ++ ['`'])) ++ rest)
      (by simp [List.replicate_succ]) (by decide) ?_
    have e : ('@' :: (List.replicate m '@' ++ ('`' :: (body ++ ['`'])) ++ rest)) =
        List.replicate (m + 1) '@' ++ ('`' :: (body ++ ['`'] ++ rest)) := by simp [List.replicate_succ]
    have hsp := spanP_replicate '@' (m + 1) ('`' :: (body ++ ['`'] ++ rest)) (fun e t he => by
      simp at he
      rw [← he.1]
      decide)
    simp only [List.cons_append] at h'
    simp only [readToken, readParameter]
    rw [e, hsp]
    simp only [if_pos, h']
  | @brace c r h =>
    refine readsExact '{' (c :: r) rfl (by decide) ?_
    have hsp := spanP_replicate '{' 1 (c :: r) (fun e t he => by
      simp at he
      rw [← he.1]
      rcases h with rfl | h | rfl
      · decide
      · rintro rfl; exact absurd h (by decide)
      · decide)
    simp only [List.replicate_one, List.singleton_append] at hsp
    have hq : quantifierFollows (c :: r) = true := by
      simp only [quantifierFollows, Bool.or_eq_true, beq_iff_eq, or_assoc]
      exact h
    simp [readToken, readBrace, hsp, hq]
  | template h =>
    obtain ⟨n, c, cs, rfl, hn, hc, hq, hmin⟩ := h
    have h' := templateLoop_complete n rest cs c hmin
    obtain ⟨m, rfl⟩ : ∃ m, n = m + 1 := ⟨n - 1, by omega⟩
    refine readsExact '{' (List.replicate m '{' ++ (c :: cs ++ List.replicate (m + 1) '}' ++ rest))
      (by simp [List.replicate_succ]) (by decide) ?_
    have e : ('{' :: (List.replicate m '{' ++ (c :: cs ++ List.replicate (m + 1) '}' ++ rest))) =
        List.replicate (m + 1) '{' ++ (c :: cs ++ List.replicate (m + 1) '}' ++ rest) := by
      simp [List.replicate_succ]
    have hsp := spanP_replicate '{' (m + 1) (c :: cs ++ List.replicate (m + 1) '}' ++ rest) (fun e t he => by
      simp at he
      rw [← he.1]
      exact hc)
    simp only [readToken, readBrace]
    rw [e, hsp]
    have hnq : ¬ ((List.replicate (m + 1) '{').length = 1 ∧
        quantifierFollows (c :: cs ++ List.replicate (m + 1) '}' ++ rest) = true) := by
      rintro ⟨q1, q2⟩
      simp only [List.length_replicate] at q1
      apply hq q1
      simpa only [quantifierFollows, List.cons_append, Bool.or_eq_true, beq_iff_eq, or_assoc] using q2
    simp only
    rw [if_neg hnq]
    simp only [List.length_replicate]
    rw [h']
    simp
  | @double l rest h =>
    have hmem : l ∈ ["||".toList, "|>".toList, "<<".toList, "<=".toList, "<>".toList, "=>".toList, "!=".toList] ∨
        (d = 0 ∧ l ∈ [">>".toList, ">=".toList]) := by
      unfold doubles at h
      rcases List.mem_append.1 h with h | h
      · exact .inl h
      · right
        by_cases hd : 0 < d
        · simp [hd] at h
        · exact ⟨by omega, by simpa [hd] using h⟩
    rcases hmem with hmem | ⟨rfl, hmem⟩
    · simp only [List.mem_cons, List.not_mem_nil, or_false] at hmem
      rcases hmem with rfl | rfl | rfl | rfl | rfl | rfl | rfl
      · exact readsExact '|' ('|' :: rest) rfl (by decide) rfl
      · exact readsExact '|' ('>' :: rest) rfl (by decide) rfl
      · exact readsExact '<' ('<' :: rest) rfl (by decide) rfl
      · exact readsExact '<' ('=' :: rest) rfl (by decide) rfl
      · exact readsExact '<' ('>' :: rest) rfl (by decide) rfl
      · exact readsExact '=' ('>' :: rest) rfl (by decide) rfl
      · exact readsExact '!' ('=' :: rest) rfl (by decide) rfl
    · simp only [List.mem_cons, List.not_mem_nil, or_false] at hmem
      rcases hmem with rfl | rfl
      · exact readsExact '>' ('>' :: rest) rfl (by decide) rfl
      · exact readsExact '>' ('=' :: rest) rfl (by decide) rfl
  | @single c rest h stop =>
    simp only [OpensOther, not_or, Bool.not_eq_true] at h
    obtain ⟨k1, k2, k3, k4, k5, k6, k7⟩ := h
    refine readsExact c rest rfl k1 ?_
    simp only [List.mem_cons, List.not_mem_nil, or_false, not_or] at k4
    have HD : ∀ e, [c, e] ∈ doubles (decide (0 < d)) → rest.head? ≠ some e := by
      intro e he hh
      cases rest with
      | nil => simp at hh
      | cons f r =>
        simp at hh
        subst hh
        exact stop f r rfl he
    by_cases ha : c ∈ armed
    · simp only [armed, List.mem_cons, List.not_mem_nil, or_false] at ha
      rcases ha with rfl | rfl | rfl | rfl | rfl | rfl | rfl | rfl | rfl | rfl | rfl | rfl | rfl | rfl
      · cases rest with
        | nil => rfl
        | cons e r =>
          have : isDigitChar e = false := by
            cases he : isDigitChar e with
            | false => rfl
            | true => exact absurd ⟨rfl, e, r, rfl, he⟩ k5
          simp [readToken, this, Read.chars]
      · simp at k4
      · simp at k4
      · simp at k4
      · simp at k4
      · cases rest with
        | nil => rfl
        | cons e r =>
          have : e ≠ '-' := by rintro rfl; exact k6 ⟨rfl, r, rfl⟩
          simp [readToken, this, Read.chars]
      · cases rest with
        | nil => rfl
        | cons e r =>
          have : e ≠ '*' := by rintro rfl; exact k7 ⟨rfl, r, rfl⟩
          simp [readToken, this, Read.chars]
      · simp [readToken, HD '|' (by simp [doubles]), HD '>' (by simp [doubles]), Read.chars]
      · simp [readToken, HD '<' (by simp [doubles]), HD '>' (by simp [doubles]), HD '=' (by simp [doubles]), Read.chars]
      · by_cases hd : 0 < d
        · simp [readToken, hd, Read.chars]
        · simp [readToken, hd, HD '>' (by simp [doubles, hd]), HD '=' (by simp [doubles, hd]), Read.chars]
      · simp [readToken, HD '>' (by simp [doubles]), Read.chars]
      · simp [readToken, HD '=' (by simp [doubles]), Read.chars]
      · simp at k4
      · simp at k4
    · rw [readToken_default _ _ _ _ ha]
      have : identStart U c = false := by
        cases hi : identStart U c with
        | false => rfl
        | true => exact absurd ((identStart_iff U c).1 hi) k3
      simp [k2, this, Read.chars]

end Verif.Lex

namespace Verif.Lex
open Verif.Spec

theorem chars_one {c : Char} {cs consumed l rest : Str} (h : Read.chars 1 (c :: cs) = .tok consumed l rest) :
    consumed = [c] ∧ l = [c] ∧ rest = cs := by
  simp [Read.chars] at h
  exact ⟨h.1.symm, h.2.1.symm, h.2.2.symm⟩

theorem chars_two {c e : Char} {cs consumed l rest : Str} (hd : cs.head? = some e)
    (h : Read.chars 2 (c :: cs) = .tok consumed l rest) :
    consumed = [c, e] ∧ l = [c, e] := by
  cases cs with
  | nil => simp at hd
  | cons f cs =>
    simp at hd
    subst hd
    simp [Read.chars] at h
    exact ⟨h.1.symm, h.2.1.symm⟩

theorem ofOption_tok {s consumed l rest : Str} {o : Option (Str × Str)}
    (h : Read.ofOption s o = .tok consumed l rest) : consumed = l ∧ o = some (l, rest) := by
  cases o with
  | none => simp [Read.ofOption] at h
  | some r =>
    obtain ⟨y, z⟩ := r
    simp [Read.ofOption] at h
    obtain ⟨rfl, rfl, rfl⟩ := h
    exact ⟨rfl, rfl⟩

/-- Every token that is read is one of the specification. -/
theorem read_lexeme {U : Unicode} (hU : U.Lawful) (d : Nat) {c : Char} {cs consumed l rest : Str}
    (hc : isWhitespaceChar c = false) (h : readToken U d c cs = .tok consumed l rest) :
    ∃ w, consumed = l ++ w ∧ AllWs w ∧ Lexeme U (decide (0 < d)) l (w ++ rest) := by
  have hgood := readToken_good _ _ _ _ _ _ _ h
  have EX : consumed = l → Lexeme U (decide (0 < d)) l rest →
      ∃ w, consumed = l ++ w ∧ AllWs w ∧ Lexeme U (decide (0 < d)) l (w ++ rest) :=
    fun h1 h2 => ⟨[], by simp [h1], by simp [AllWs], h2⟩
  have ONE : Read.chars 1 (c :: cs) = .tok consumed l rest → ¬ OpensOther U c cs →
      (∀ e, [c, e] ∈ doubles (decide (0 < d)) → cs.head? ≠ some e) →
      ∃ w, consumed = l ++ w ∧ AllWs w ∧ Lexeme U (decide (0 < d)) l (w ++ rest) := by
    intro h1 h2 h3
    obtain ⟨rfl, rfl, rfl⟩ := chars_one h1
    refine EX rfl (.single h2 ?_)
    intro e r hr he
    exact h3 e he (by rw [hr]; rfl)
  have TWO : ∀ e, cs.head? = some e → Read.chars 2 (c :: cs) = .tok consumed l rest →
      [c, e] ∈ doubles (decide (0 < d)) →
      ∃ w, consumed = l ++ w ∧ AllWs w ∧ Lexeme U (decide (0 < d)) l (w ++ rest) := by
    intro e he h1 h2
    obtain ⟨rfl, rfl⟩ := chars_two he h1
    exact EX rfl (.double h2)
  have NW : ∀ e : Char, (e.toNat < 128 ∧ isAsciiLetter e = false ∧ e ≠ '_') → ¬ StartsWord U e :=
    fun e he hw => startsWord_ne hU hw e he rfl
  have OTH : ∀ e : Char, (isWhitespaceChar e = false ∧ isDigitChar e = false ∧
      (e.toNat < 128 ∧ isAsciiLetter e = false ∧ e ≠ '_') ∧ e ∉ ['"', '\'', '`', '#', '@', '{'] ∧
      e ≠ '.' ∧ e ≠ '-' ∧ e ≠ '/') → ¬ OpensOther U e cs := by
    rintro e ⟨k1, k2, k3, k4, k5, k6, k7⟩ (k | k | k | k | k | k | k)
    · rw [k1] at k; simp at k
    · rw [k2] at k; simp at k
    · exact NW e k3 k
    · exact k4 k
    · exact k5 k.1
    · exact k6 k.1
    · exact k7 k.1
  have COMMENT : ∀ s, IsLineComment l →
      Read.tok (readComment s).1 (trimEnd (readComment s).1) (readComment s).2 = .tok consumed l rest →
      ∃ w, consumed = l ++ w ∧ AllWs w ∧ Lexeme U (decide (0 < d)) l (w ++ rest) := by
    intro s hl hs
    simp at hs
    obtain ⟨h1, h2, h3⟩ := hs
    obtain ⟨w, h4, h5, h6⟩ := readComment_sound s (by rw [h2]; exact hl)
    rw [h2] at h4 h6
    rw [h3] at h6
    exact ⟨w, by rw [← h1, h4], h5, .lineComment h6⟩
  have STRING : ∀ q, q = '"' ∨ q = '\'' → c = q →
      (if cs.head? = some q ∧ cs.tail.head? = some q then Read.ofOption (q :: cs) (readMultilineString (q :: cs))
         else Read.ofOption (q :: cs) (readString (q :: cs))) = .tok consumed l rest →
      ∃ w, consumed = l ++ w ∧ AllWs w ∧ Lexeme U (decide (0 < d)) l (w ++ rest) := by
    rintro q hq rfl hs
    split at hs
    · rename_i hh
      obtain ⟨h1, h2⟩ := ofOption_tok hs
      match cs, hh with
      | e :: f :: r, hh =>
        simp at hh
        obtain ⟨rfl, rfl⟩ := hh
        obtain ⟨-, body, h3, h4, h5⟩ := readMultilineString_split _ _ _ _ _ _ h2
        refine EX h1 (.string3 hq (body := body) ⟨h3, ?_, ?_⟩)
        · rw [← parity_spec]; exact h4
        · intro x y hxy hlt
          rw [← parity_spec]; exact h5 x y hxy hlt
    · rename_i hh
      obtain ⟨h1, h2⟩ := ofOption_tok hs
      obtain ⟨h0, body, h3, h4, h5⟩ := readString_split _ _ _ _ h2
      refine EX h1 (.string hq (body := body) ⟨h3, ?_, ?_⟩ ?_)
      · rw [← parity_spec]; exact h4
      · intro x y hxy
        rw [← parity_spec]; exact h5 x y hxy
      · rintro rfl e r hr rfl
        apply hh
        rw [h3, hr] at h0
        simp at h0
        rw [← h0]
        exact ⟨rfl, rfl⟩
  by_cases ha : c ∈ armed
  · simp only [armed, List.mem_cons, List.not_mem_nil, or_false] at ha
    rcases ha with rfl | rfl | rfl | rfl | rfl | rfl | rfl | rfl | rfl | rfl | rfl | rfl | rfl | rfl
    · -- .
      cases cs with
      | nil =>
        refine ONE h ?_ ?_
        · simp [OpensOther, NW '.' (by decide), show isWhitespaceChar '.' = false by decide,
            show isDigitChar '.' = false by decide]
        · intro e he
          simp
      | cons e r =>
        cases he : isDigitChar e with
        | true =>
          simp [readToken, he, Read.exact] at h
          obtain ⟨h1, h2, h3⟩ := h
          exact EX (by rw [← h1, ← h2]) (.number (readNumber_sound ('.' :: e :: r) l rest
            (by rw [← h2, ← h3]) (.inr ⟨e, r, rfl, he⟩)))
        | false =>
          simp only [readToken, List.head?_cons, he, Bool.false_eq_true, if_false] at h
          refine ONE h ?_ ?_
          · simp [OpensOther, NW '.' (by decide), show isWhitespaceChar '.' = false by decide,
              show isDigitChar '.' = false by decide, he]
          · intro f hf
            unfold doubles at hf
            simp at hf
    · -- #
      refine COMMENT ('#' :: cs) ?_ h
      obtain ⟨-, -, t, ht⟩ := hgood
      exact .inl ⟨t, ht⟩
    · -- back quote
      obtain ⟨h1, h2⟩ := ofOption_tok (show Read.ofOption _ (readBackQuoted ('`' :: cs)) = _ from h)
      obtain ⟨-, body, h3, h4⟩ := readBackQuoted_split _ _ _ _ h2
      exact EX h1 (.backQuoted ⟨body, h3, h4⟩)
    · exact STRING '"' (.inl rfl) rfl h
    · exact STRING '\'' (.inr rfl) rfl h
    · -- -
      by_cases hh : cs.head? = some '-'
      · cases cs with
        | nil => simp at hh
        | cons e r =>
          simp at hh
          subst hh
          refine COMMENT ('-' :: '-' :: r) ?_ h
          simp only [readToken, List.head?_cons, if_true] at h
          have h2 : trimEnd (readComment ('-' :: '-' :: r)).1 = l := by
            injection h
          have h3 : (readComment ('-' :: '-' :: r)).1 = '-' :: '-' :: (readComment r).1 := by
            simp [readComment, spanP]
          rw [h3, trimEnd_cons _ _ ws_dash, trimEnd_cons _ _ ws_dash] at h2
          exact .inr ⟨_, h2.symm⟩
      · have h1 : Read.chars 1 ('-' :: cs) = .tok consumed l rest := by
          simpa [readToken, hh] using h
        refine ONE h1 ?_ ?_
        · rintro (k | k | k | k | k | k | k)
          · exact absurd k (by decide)
          · exact absurd k (by decide)
          · exact NW '-' (by decide) k
          · exact absurd k (by decide)
          · exact absurd k.1 (by decide)
          · obtain ⟨-, r, rfl⟩ := k
            exact hh rfl
          · exact absurd k.1 (by decide)
        · intro f hf
          unfold doubles at hf
          simp at hf
    · -- /
      by_cases hh : cs.head? = some '*'
      · have h1 : Read.ofOption ('/' :: cs) (readMultilineComment ('/' :: cs)) = .tok consumed l rest := by
          simpa [readToken, hh] using h
        obtain ⟨h2, h3⟩ := ofOption_tok h1
        obtain ⟨h4, body, h5, h6⟩ := readMultilineComment_split _ _ _ h3
        refine EX h2 (.blockComment ⟨?_, ⟨body, h5⟩, ?_⟩)
        · cases cs with
          | nil => simp at hh
          | cons e r =>
            simp at hh
            subst hh
            rw [h5] at h4
            cases body with
            | nil => simp at h4
            | cons b body =>
              simp at h4
              obtain ⟨rfl, h4⟩ := h4
              cases body with
              | nil =>
                simp at h4
                exact ⟨['/'], by rw [h5]; rfl⟩
              | cons b body =>
                simp at h4
                obtain ⟨rfl, h4⟩ := h4
                exact ⟨_, by rw [h5]; rfl⟩
        · intro x y hxy
          have hx := h6 x y (by rw [← hxy, h5])
          subst hx
          rw [h5] at hxy
          simpa using hxy
      · have h1 : Read.chars 1 ('/' :: cs) = .tok consumed l rest := by
          simpa [readToken, hh] using h
        refine ONE h1 ?_ ?_
        · rintro (k | k | k | k | k | k | k)
          · exact absurd k (by decide)
          · exact absurd k (by decide)
          · exact NW '/' (by decide) k
          · exact absurd k (by decide)
          · exact absurd k.1 (by decide)
          · exact absurd k.1 (by decide)
          · obtain ⟨-, r, rfl⟩ := k
            exact hh rfl
        · intro f hf
          unfold doubles at hf
          simp at hf
    · -- |
      simp only [readToken] at h
      split at h
      · rename_i hh; exact TWO _ hh h (by simp [doubles])
      · split at h
        · rename_i hh; exact TWO _ hh h (by simp [doubles])
        · rename_i k1 k2
          refine ONE h (OTH '|' (by decide)) ?_
          intro e he hh
          simp [doubles] at he
          rcases he with rfl | rfl
          · exact k1 hh
          · exact k2 hh
    · -- <
      simp only [readToken] at h
      split at h
      · rename_i hh; exact TWO _ hh h (by simp [doubles])
      · split at h
        · rename_i hh; exact TWO _ hh h (by simp [doubles])
        · split at h
          · rename_i hh; exact TWO _ hh h (by simp [doubles])
          · rename_i k1 k2 k3
            refine ONE h (OTH '<' (by decide)) ?_
            intro e he hh
            simp [doubles] at he
            rcases he with rfl | rfl | rfl
            · exact k1 hh
            · exact k2 hh
            · exact k3 hh
    · -- >
      simp only [readToken] at h
      split at h
      · rename_i hd
        refine ONE h (OTH '>' (by decide)) ?_
        intro e he hh
        simp [doubles, hd] at he
      · rename_i hd
        split at h
        · rename_i hh; exact TWO _ hh h (by simp [doubles, hd])
        · split at h
          · rename_i hh; exact TWO _ hh h (by simp [doubles, hd])
          · rename_i k1 k2
            refine ONE h (OTH '>' (by decide)) ?_
            intro e he hh
            simp [doubles, hd] at he
            rcases he with rfl | rfl
            · exact k1 hh
            · exact k2 hh
    · -- =
      simp only [readToken] at h
      split at h
      · rename_i hh; exact TWO _ hh h (by simp [doubles])
      · rename_i k1
        refine ONE h (OTH '=' (by decide)) ?_
        intro e he hh
        simp [doubles] at he
        subst he
        exact k1 hh
    · -- !
      simp only [readToken] at h
      split at h
      · rename_i hh; exact TWO _ hh h (by simp [doubles])
      · rename_i k1
        refine ONE h (OTH '!' (by decide)) ?_
        intro e he hh
        simp [doubles] at he
        subst he
        exact k1 hh
    · -- @
      simp only [readToken, readParameter] at h
      have hall := all_eq_replicate '@' _ (spanP_fst_all (fun c => c == '@') ('@' :: cs))
      have hlen : 1 ≤ (spanP (fun c => c == '@') ('@' :: cs)).1.length := by simp [spanP]
      generalize spanP (fun c => c == '@') ('@' :: cs) = A at h hall hlen
      split at h
      · simp at h
      · rename_i e es heq
        split at h
        · rename_i hbq
          subst hbq
          split at h
          · rename_i x y hxy
            simp at h
            obtain ⟨h1, h2, h3⟩ := h
            obtain ⟨-, body, h4, h5⟩ := readBackQuoted_split _ _ _ _ hxy
            subst h3
            rw [← h2, ← h1]
            refine ⟨[], by simp, by simp [AllWs], ?_⟩
            rw [hall]
            exact .quotedParameter hlen ⟨body, h4, h5⟩
          · simp at h
        · split at h
          · rename_i hid
            simp at h
            obtain ⟨h1, h2, h3⟩ := h
            obtain ⟨h4, h5⟩ := readIdentifier_sound U e es ((identStart_iff U e).1 hid)
            rw [← h2, ← h1, ← h3]
            refine ⟨[], by simp, by simp [AllWs], ?_⟩
            rw [hall]
            exact .parameter hlen h4 h5
          · simp at h
    · -- {
      simp only [readToken, readBrace] at h
      have hall := all_eq_replicate '{' _ (spanP_fst_all (fun c => c == '{') ('{' :: cs))
      have hlen : 1 ≤ (spanP (fun c => c == '{') ('{' :: cs)).1.length := by simp [spanP]
      have hhead := spanP_snd_head (fun c => c == '{') ('{' :: cs)
      generalize spanP (fun c => c == '{') ('{' :: cs) = A at h hall hlen hhead
      split at h
      · rename_i hq
        obtain ⟨q1, q2⟩ := hq
        simp at h
        obtain ⟨h1, h2, h3⟩ := h
        rw [q1] at hall
        subst h3
        refine ⟨[], by rw [← h1, ← h2, hall]; rfl, by simp [AllWs], ?_⟩
        rw [← h2]
        cases hA : A.2 with
        | nil => rw [hA] at q2; simp [quantifierFollows] at q2
        | cons e r =>
          rw [hA] at q2
          simp only [quantifierFollows, Bool.or_eq_true, beq_iff_eq, or_assoc] at q2
          exact .brace q2
      · rename_i hq
        split at h
        · rename_i x y hxy
          simp at h
          obtain ⟨h1, h2, h3⟩ := h
          obtain ⟨h4, e, es, h5, h6⟩ := templateLoop_min _ _ _ _ hxy
          subst h3
          rw [← h2, ← h1]
          refine ⟨[], by simp, by simp [AllWs], .template ⟨A.1.length, e, es, ?_, hlen, ?_, ?_, h6⟩⟩
          · rw [h5, ← hall]; simp
          · have := hhead e (es ++ List.replicate A.1.length '}' ++ y) (by rw [← h4, h5]; simp)
            simpa using this
          · intro hn hh
            apply hq
            refine ⟨hn, ?_⟩
            rw [← h4, h5]
            simpa only [quantifierFollows, List.cons_append, Bool.or_eq_true, beq_iff_eq, or_assoc] using hh
        · simp at h
  · have ha' := ha
    rw [readToken_default _ _ _ _ ha] at h
    simp only [armed, List.mem_cons, List.not_mem_nil, or_false, not_or] at ha
    split at h
    · rename_i hd
      simp [Read.exact] at h
      obtain ⟨h1, h2, h3⟩ := h
      exact EX (by rw [← h1, ← h2]) (.number (readNumber_sound (c :: cs) l rest
        (by rw [← h2, ← h3]) (.inl ⟨c, cs, rfl, hd⟩)))
    · rename_i hd
      split at h
      · rename_i hi
        simp [Read.exact] at h
        obtain ⟨h1, h2, h3⟩ := h
        obtain ⟨h4, h5⟩ := readIdentifier_sound U c cs ((identStart_iff U c).1 hi)
        rw [h2] at h4
        rw [h3] at h5
        exact EX (by rw [← h1, ← h2]) (.word h4 h5)
      · rename_i hi
        refine ONE h ?_ ?_
        · rintro (k | k | k | k | k | k | k)
          · rw [hc] at k; simp at k
          · exact hd k
          · exact hi ((identStart_iff U c).2 k)
          · simp only [List.mem_cons, List.not_mem_nil, or_false] at k
            rcases k with rfl | rfl | rfl | rfl | rfl | rfl <;> simp at ha
          · exact ha.1 k.1
          · exact ha.2.2.2.2.2.1 k.1
          · exact ha.2.2.2.2.2.2.1 k.1
        · intro e he
          exfalso
          cases hb : decide (0 < d) <;> simp [doubles, hb] at he <;> rcases he with he | he | he | he <;> simp_all

end Verif.Lex
