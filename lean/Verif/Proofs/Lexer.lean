import Verif.Model.Lexer
import Verif.Spec.Lexer
/-! Lemmas about the lexer model. -/
namespace Verif.Lex
open Verif.Spec

theorem spanP_append (p : Char → Bool) (s : Str) : (spanP p s).1 ++ (spanP p s).2 = s := by
  induction s with
  | nil => rfl
  | cons c cs ih =>
    unfold spanP
    split
    · simp [ih]
    · rfl

theorem spanP_fst_all (p : Char → Bool) (s : Str) : ∀ c ∈ (spanP p s).1, p c = true := by
  induction s with
  | nil => simp [spanP]
  | cons c cs ih =>
    unfold spanP
    split
    · intro d hd
      rcases List.mem_cons.1 hd with h | h
      · subst h; assumption
      · exact ih d h
    · simp

theorem spanP_snd_head (p : Char → Bool) (s : Str) : ∀ c r, (spanP p s).2 = c :: r → p c = false := by
  induction s with
  | nil => simp [spanP]
  | cons c cs ih =>
    unfold spanP
    split
    · exact ih
    · intro d r h
      simp at h
      obtain ⟨rfl, rfl⟩ := h
      simp_all

theorem spanP_of_all (p : Char → Bool) (a b : Str) (ha : ∀ c ∈ a, p c = true)
    (hb : ∀ c r, b = c :: r → p c = false) : spanP p (a ++ b) = (a, b) := by
  induction a with
  | nil =>
    cases b with
    | nil => rfl
    | cons c r => simp [spanP, hb c r rfl]
  | cons c a ih =>
    have h1 := ha c (by simp)
    have h2 := ih (fun d hd => ha d (by simp [hd]))
    simp [spanP, h1, h2]

theorem spanP_append_of_stop (p : Char → Bool) (s x : Str)
    (hx : ∀ c r, x = c :: r → p c = false) :
    spanP p (s ++ x) = ((spanP p s).1, (spanP p s).2 ++ x) := by
  induction s with
  | nil =>
    cases x with
    | nil => rfl
    | cons c r => simp [spanP, hx c r rfl]
  | cons c s ih =>
    by_cases h : p c = true
    · simp [spanP, h, ih]
    · simp [spanP, h]

theorem advanceAll_append (p : Nat × Nat) (a b : Str) :
    advanceAll p (a ++ b) = advanceAll (advanceAll p a) b := by
  simp [advanceAll, List.foldl_append]

/-- The position after consuming `s` from the start, as specified. -/
theorem advanceAll_spec (s : Str) : advanceAll (1, 1) s = (lineAfter s, columnAfter s) := by
  have key : ∀ s : Str, advanceAll (1, 1) s.reverse =
      (lineAfter s.reverse, columnAfter s.reverse) := by
    intro s
    induction s with
    | nil => rfl
    | cons c s ih =>
      rw [List.reverse_cons, advanceAll_append, ih]
      simp only [advanceAll, List.foldl_cons, List.foldl_nil, advance, lineAfter, columnAfter,
        List.count_append, List.reverse_append, List.reverse_reverse, List.reverse_cons,
        List.reverse_nil, List.nil_append, List.cons_append, List.takeWhile_cons]
      by_cases h : c = '\n'
      · subst h; simp; omega
      · simp [h]; omega
  have := key s.reverse
  simpa using this

theorem advanceAll_cat (b w : Str) (p : Nat × Nat) (h : p = (lineAfter b, columnAfter b)) :
    advanceAll p w = (lineAfter (b ++ w), columnAfter (b ++ w)) := by
  rw [h, ← advanceAll_spec, ← advanceAll_spec, advanceAll_append]

/-! ### Readers split their input -/

theorem throughChar_split (q : Char) (s a b : Str) (h : throughChar q s = some (a, b)) :
    a ++ b = s ∧ ∃ body, a = body ++ [q] ∧ q ∉ body := by
  induction s generalizing a b with
  | nil => simp [throughChar] at h
  | cons c cs ih =>
    unfold throughChar at h
    split at h
    · rename_i hc
      simp at h; obtain ⟨rfl, rfl⟩ := h
      subst hc
      exact ⟨rfl, [], rfl, by simp⟩
    · rename_i hc
      split at h
      · rename_i a' b' h'
        simp at h; obtain ⟨rfl, rfl⟩ := h
        obtain ⟨h1, body, h2, h3⟩ := ih _ _ h'
        refine ⟨by simp [h1], c :: body, by simp [h2], ?_⟩
        simp [h3, Ne.symm hc]
      · simp at h

theorem readBackQuoted_split (q : Char) (cs a b : Str) (h : readBackQuoted (q :: cs) = some (a, b)) :
    a ++ b = q :: cs ∧ ∃ body, a = q :: (body ++ [q]) ∧ q ∉ body := by
  simp only [readBackQuoted] at h
  split at h
  · rename_i a' b' h'
    simp at h; obtain ⟨rfl, rfl⟩ := h
    obtain ⟨h1, body, h2, h3⟩ := throughChar_split _ _ _ _ h'
    exact ⟨by simp [h1], body, by simp [h2], h3⟩
  · simp at h

theorem readMultilineComment_split (s a b : Str) (h : readMultilineComment s = some (a, b)) :
    a ++ b = s ∧ ∃ body, a = body ++ ['*', '/'] ∧ ∀ x y, x ++ '*' :: '/' :: y = body ++ ['*', '/'] → x = body := by
  induction s generalizing a b with
  | nil => simp [readMultilineComment] at h
  | cons c cs ih =>
    unfold readMultilineComment at h
    split at h
    · rename_i hc
      simp at h; obtain ⟨rfl, rfl⟩ := h
      obtain ⟨rfl, h2⟩ := hc
      cases cs with
      | nil => simp at h2
      | cons d ds =>
        simp at h2; subst h2
        refine ⟨rfl, [], rfl, ?_⟩
        intro x y hxy
        have := congrArg List.length hxy
        simp at this
        exact List.eq_nil_of_length_eq_zero (by omega)
    · rename_i hc
      split at h
      · rename_i a' b' h'
        simp at h; obtain ⟨rfl, rfl⟩ := h
        obtain ⟨h1, body, h2, h3⟩ := ih _ _ h'
        refine ⟨by simp [h1], c :: body, by simp [h2], ?_⟩
        intro x y hxy
        cases x with
        | nil =>
          exfalso
          simp at hxy
          apply hc
          refine ⟨hxy.1.symm, ?_⟩
          rw [← h1, h2, ← hxy.2]; rfl
        | cons d x =>
          simp at hxy
          rw [hxy.1, h3 x y (by simpa using hxy.2)]
      · simp at h

/-- Parity of trailing backslashes, continued from parity `odd` before `s`. -/
def parity (odd : Bool) (s : Str) : Bool := s.foldl (fun o c => if c = '\\' then !o else false) odd

theorem parity_append (odd : Bool) (a b : Str) : parity odd (a ++ b) = parity (parity odd a) b := by
  simp [parity, List.foldl_append]

theorem parity_spec (s : Str) : parity false s = oddBackslashes s := by
  have key : ∀ s : Str, parity false s.reverse = oddBackslashes s.reverse := by
    intro s
    induction s with
    | nil => rfl
    | cons c s ih =>
      rw [List.reverse_cons, parity_append, ih]
      simp only [parity, oddBackslashes, List.foldl_cons, List.foldl_nil, List.reverse_append,
        List.reverse_reverse, List.reverse_cons, List.reverse_nil, List.nil_append,
        List.cons_append, List.takeWhile_cons]
      by_cases h : c = '\\'
      · subst h
        simp
        generalize (List.takeWhile (fun x => x == '\\') s).length = n
        rcases Nat.mod_two_eq_zero_or_one n with h | h <;> simp [h] <;> omega
      · simp [h]
  have := key s.reverse
  simpa using this

theorem stringLoop_split (q : Char) (odd : Bool) (s a b : Str)
    (h : stringLoop q odd s = some (a, b)) :
    a ++ b = s ∧ ∃ body, a = body ++ [q] ∧ parity odd body = false ∧
      ∀ x y, body = x ++ q :: y → parity odd x = true := by
  induction s generalizing a b odd with
  | nil => simp [stringLoop] at h
  | cons c cs ih =>
    unfold stringLoop at h
    split at h
    · rename_i hc
      simp at h; obtain ⟨rfl, rfl⟩ := h
      obtain ⟨h1, rfl⟩ := hc
      exact ⟨rfl, [], rfl, by simp [parity, h1], by simp⟩
    · rename_i hc
      split at h
      · rename_i a' b' h'
        simp at h; obtain ⟨rfl, rfl⟩ := h
        obtain ⟨h1, body, h2, h3, h4⟩ := ih _ _ _ h'
        refine ⟨by simp [h1], c :: body, by simp [h2], by simpa [parity] using h3, ?_⟩
        intro x y hxy
        cases x with
        | nil =>
          simp at hxy
          have : ¬ odd = false := fun hh => hc ⟨hh, hxy.1⟩
          simpa [parity] using this
        | cons d x =>
          simp at hxy
          obtain ⟨rfl, hxy⟩ := hxy
          simpa [parity] using h4 x y hxy
      · simp at h

theorem multilineStringLoop_split (q : Char) (odd : Bool) (s a b : Str)
    (h : multilineStringLoop q odd s = some (a, b)) :
    a ++ b = s ∧ ∃ body, a = body ++ [q, q, q] ∧ parity odd body = false ∧
      ∀ x y, x ++ q :: q :: q :: y = body ++ [q, q, q] → x.length < body.length → parity odd x = true := by
  induction s generalizing a b odd with
  | nil => simp [multilineStringLoop] at h
  | cons c cs ih =>
    unfold multilineStringLoop at h
    split at h
    · rename_i hc
      simp at h; obtain ⟨rfl, rfl⟩ := h
      obtain ⟨h1, rfl, h2, h3⟩ := hc
      match cs, h2, h3 with
      | d :: e :: r, h2, h3 =>
        simp at h2 h3
        subst h2; subst h3
        exact ⟨rfl, [], rfl, by simp [parity, h1], by simp⟩
    · rename_i hc
      split at h
      · rename_i a' b' h'
        simp at h; obtain ⟨rfl, rfl⟩ := h
        obtain ⟨h1, body, h2, h3, h4⟩ := ih _ _ _ h'
        refine ⟨by simp [h1], c :: body, by simp [h2], by simpa [parity] using h3, ?_⟩
        intro x y hxy hlen
        cases x with
        | nil =>
          simp at hxy
          have : ¬ odd = false := by
            intro hh
            apply hc
            refine ⟨hh, hxy.1.symm, ?_⟩
            rw [← h1, h2, ← hxy.2]
            simp
          simpa [parity] using this
        | cons d x =>
          simp at hxy hlen
          obtain ⟨rfl, hxy⟩ := hxy
          simpa [parity] using h4 x y hxy hlen
      · simp at h

theorem startsBraces_split (n : Nat) (s : Str) (h : startsBraces n s = true) :
    s.take n = List.replicate n '}' ∧ n ≤ s.length := by
  induction n generalizing s with
  | zero => simp
  | succ n ih =>
    cases s with
    | nil => simp [startsBraces] at h
    | cons c cs =>
      simp [startsBraces] at h
      obtain ⟨rfl, h⟩ := h
      have := ih cs h
      simp [List.replicate_succ, this.1]
      exact this.2

theorem templateLoop_split (n : Nat) (s a b : Str) (h : templateLoop n s = some (a, b)) :
    a ++ b = s ∧ ∃ body, a = body ++ List.replicate n '}' ∧ body ≠ [] := by
  induction s generalizing a b with
  | nil => simp [templateLoop] at h
  | cons c cs ih =>
    unfold templateLoop at h
    split at h
    · rename_i hc
      simp at h; obtain ⟨rfl, rfl⟩ := h
      exact ⟨by simp, [c], by simp [(startsBraces_split n cs hc).1], by simp⟩
    · split at h
      · rename_i a' b' h'
        simp at h; obtain ⟨rfl, rfl⟩ := h
        obtain ⟨h1, body, h2, _⟩ := ih _ _ h'
        exact ⟨by simp [h1], c :: body, by simp [h2], by simp⟩
      · simp at h

theorem trimEnd_split (s : Str) : ∃ w, s = trimEnd s ++ w ∧ AllWs w := by
  induction s with
  | nil => exact ⟨[], rfl, by simp [AllWs]⟩
  | cons c cs ih =>
    obtain ⟨w, h1, h2⟩ := ih
    unfold trimEnd
    split
    · rename_i h
      split
      · rename_i hc
        refine ⟨c :: w, by rw [h] at h1; simp at h1; simp [h1], ?_⟩
        intro d hd
        rcases List.mem_cons.1 hd with rfl | hd
        · exact hc
        · exact h2 d hd
      · refine ⟨w, by rw [h] at h1; simp at h1; simp [h1], h2⟩
    · refine ⟨w, by simp [← h1], h2⟩

theorem trimEnd_last (s : Str) (x : Str) (c : Char) (h : trimEnd s = x ++ [c]) : isWhitespaceChar c = false := by
  induction s generalizing x with
  | nil => simp [trimEnd] at h
  | cons d ds ih =>
    unfold trimEnd at h
    split at h
    · split at h
      · simp at h
      · rename_i hd
        have : x = [] := by
          have := congrArg List.length h
          simp at this; exact this
        subst this
        simp at h
        subst h
        simpa using hd
    · rename_i r hr
      cases x with
      | nil =>
        simp at h
        exact absurd h.2 hr
      | cons y x =>
        simp at h
        exact ih x h.2

theorem trimEnd_cons (c : Char) (cs : Str) (h : isWhitespaceChar c = false) :
    trimEnd (c :: cs) = c :: trimEnd cs := by
  conv => lhs; unfold trimEnd
  split
  · rename_i h'; simp [h, h']
  · rfl

theorem trimEnd_append_ws (s w : Str) (hw : AllWs w) : trimEnd (s ++ w) = trimEnd s := by
  induction s with
  | nil =>
    induction w with
    | nil => rfl
    | cons c w ih =>
      have h1 := hw c (by simp)
      have h2 := ih (fun d hd => hw d (by simp [hd]))
      simp [trimEnd] at h2 ⊢
      simp [h2, h1]
  | cons c s ih => simp [trimEnd, ih]

theorem readFraction_split (s : Str) : (readFraction s).1 ++ (readFraction s).2 = s := by
  unfold readFraction
  split
  · simp [spanP_append]
  · rfl

theorem readSign_split (s : Str) : (readSign s).1 ++ (readSign s).2 = s := by
  unfold readSign
  split
  · split <;> simp
  · rfl

theorem readExponent_split (s : Str) : (readExponent s).1 ++ (readExponent s).2 = s := by
  unfold readExponent
  split
  · split
    · rename_i c r _
      simp [spanP_append, readSign_split]
    · rfl
  · rfl

theorem readNumber_split (s : Str) : (readNumber s).1 ++ (readNumber s).2 = s := by
  simp only [readNumber, List.append_assoc]
  rw [readExponent_split, readFraction_split, spanP_append]

theorem readNumber_digit (c : Char) (cs : Str) (h : isDigitChar c = true) :
    ∃ l, (readNumber (c :: cs)).1 = c :: l := by
  simp [readNumber, spanP, h]

theorem readNumber_dot (d : Char) (cs : Str) (_h : isDigitChar d = true) :
    ∃ l, (readNumber ('.' :: d :: cs)).1 = '.' :: l := by
  simp [readNumber, spanP, readFraction, show isDigitChar '.' = false by decide]

/-- What every successful reader guarantees: it consumes a prefix of its input which is the literal
followed by white space, and the literal starts with the current character. -/
def GoodRead (c : Char) (cs consumed lit rest : Str) : Prop :=
  consumed ++ rest = c :: cs ∧ (∃ w, consumed = lit ++ w ∧ AllWs w) ∧ ∃ l, lit = c :: l

theorem goodRead_exact {c : Char} {cs lit rest : Str} (h : lit ++ rest = c :: cs) (hl : lit ≠ []) :
    GoodRead c cs lit lit rest := by
  refine ⟨h, ⟨[], by simp, by simp [AllWs]⟩, ?_⟩
  cases lit with
  | nil => exact absurd rfl hl
  | cons d l =>
    simp at h
    exact ⟨l, by rw [h.1]⟩

theorem goodRead_chars (n : Nat) (c : Char) (cs consumed lit rest : Str) (hn : 0 < n)
    (h : Read.chars n (c :: cs) = .tok consumed lit rest) : GoodRead c cs consumed lit rest := by
  simp [Read.chars] at h
  obtain ⟨h1, h2, h3⟩ := h
  subst h2
  subst h1
  apply goodRead_exact
  · rw [← h3]; simp
  · cases n with
    | zero => omega
    | succ n => simp

theorem goodRead_number (c : Char) (cs consumed lit rest : Str)
    (hne : (readNumber (c :: cs)).1 ≠ [])
    (h : Read.exact (readNumber (c :: cs)) = .tok consumed lit rest) :
    GoodRead c cs consumed lit rest := by
  simp [Read.exact] at h
  obtain ⟨h1, h2, h3⟩ := h
  subst h2
  subst h1
  apply goodRead_exact _ hne
  rw [← h3]
  exact readNumber_split _

theorem goodRead_option (c : Char) (cs consumed lit rest : Str) (o : Option (Str × Str))
    (ho : ∀ a b, o = some (a, b) → a ++ b = c :: cs ∧ a ≠ [])
    (h : Read.ofOption (c :: cs) o = .tok consumed lit rest) : GoodRead c cs consumed lit rest := by
  cases o with
  | none => simp [Read.ofOption] at h
  | some p =>
    obtain ⟨a, b⟩ := p
    simp [Read.ofOption] at h
    obtain ⟨h1, h2, h3⟩ := h
    subst h1; subst h2; subst h3
    exact goodRead_exact (ho _ _ rfl).1 (ho _ _ rfl).2

theorem goodRead_comment (c : Char) (cs consumed lit rest : Str) (hc : isWhitespaceChar c = false)
    (h : (Read.tok (readComment (c :: cs)).1 (trimEnd (readComment (c :: cs)).1)
      (readComment (c :: cs)).2) = .tok consumed lit rest) (hn : c ≠ '\n') :
    GoodRead c cs consumed lit rest := by
  simp at h
  obtain ⟨h1, h2, h3⟩ := h
  have hsplit := spanP_append (fun c => c != '\n') (c :: cs)
  obtain ⟨w, hw1, hw2⟩ := trimEnd_split (readComment (c :: cs)).1
  refine ⟨?_, ⟨w, ?_, hw2⟩, ?_⟩
  · rw [← h1, ← h3]; exact hsplit
  · rw [← h1, ← h2]; exact hw1
  · rw [← h2]
    refine ⟨trimEnd (spanP (fun c => c != '\n') cs).1, ?_⟩
    simp [readComment, spanP, hn, trimEnd_cons, hc]

theorem readMultilineString_split (q q' q'' : Char) (cs a b : Str)
    (h : readMultilineString (q :: q' :: q'' :: cs) = some (a, b)) :
    a ++ b = q :: q' :: q'' :: cs ∧ ∃ body, a = q :: q' :: q'' :: (body ++ [q, q, q]) ∧
      parity false body = false ∧
      ∀ x y, x ++ q :: q :: q :: y = body ++ [q, q, q] → x.length < body.length → parity false x = true := by
  unfold readMultilineString at h
  split at h
  · rename_i q1 q1' q1'' cs1 heq
    simp at heq
    obtain ⟨rfl, rfl, rfl, rfl⟩ := heq
    split at h
    · rename_i a' b' h'
      simp at h; obtain ⟨rfl, rfl⟩ := h
      obtain ⟨h1, body, h2, h3, h4⟩ := multilineStringLoop_split _ _ _ _ _ h'
      exact ⟨by simp [h1], body, by simp [h2], h3, h4⟩
    · simp at h
  · rename_i hno
    exact absurd rfl (hno q q' q'' cs)

theorem readString_split (q : Char) (cs a b : Str) (h : readString (q :: cs) = some (a, b)) :
    a ++ b = q :: cs ∧ ∃ body, a = q :: (body ++ [q]) ∧ parity false body = false ∧
      ∀ x y, body = x ++ q :: y → parity false x = true := by
  simp only [readString] at h
  split at h
  · rename_i a' b' h'
    simp at h; obtain ⟨rfl, rfl⟩ := h
    obtain ⟨h1, body, h2, h3, h4⟩ := stringLoop_split _ _ _ _ _ h'
    exact ⟨by simp [h1], body, by simp [h2], h3, h4⟩
  · simp at h

theorem readIdentifier_split (U : Unicode) (c : Char) (cs : Str) :
    (readIdentifier U (c :: cs)).1 ++ (readIdentifier U (c :: cs)).2 = c :: cs := by
  simp [readIdentifier, spanP_append]

theorem goodRead_parameter (U : Unicode) (cs consumed lit rest : Str)
    (h : readParameter U ('@' :: cs) = .tok consumed lit rest) : GoodRead '@' cs consumed lit rest := by
  unfold readParameter at h
  have hs := spanP_append (fun c => c == '@') ('@' :: cs)
  have hne : ∃ r, (spanP (fun c => c == '@') ('@' :: cs)).1 = '@' :: r :=
    by simp [spanP]
  generalize spanP (fun c => c == '@') ('@' :: cs) = A at h hs hne
  obtain ⟨r, hr⟩ := hne
  simp only at h
  split at h
  · simp at h
  · rename_i c ds heq
    split at h
    · split at h
      · rename_i x y hxy
        simp at h
        obtain ⟨h1, h2, rfl⟩ := h
        subst h2; subst h1
        apply goodRead_exact
        · rw [← hs, heq, ← (readBackQuoted_split _ _ _ _ hxy).1]; simp
        · simp [hr]
      · simp at h
    · split at h
      · simp at h
        obtain ⟨h1, h2, h3⟩ := h
        subst h2; subst h1
        apply goodRead_exact
        · rw [← hs, heq, ← h3, List.append_assoc, readIdentifier_split U c ds]
        · simp [hr]
      · simp at h

theorem goodRead_brace (cs consumed lit rest : Str)
    (h : readBrace ('{' :: cs) = .tok consumed lit rest) : GoodRead '{' cs consumed lit rest := by
  unfold readBrace at h
  have hs := spanP_append (fun c => c == '{') ('{' :: cs)
  have hne : ∃ r, (spanP (fun c => c == '{') ('{' :: cs)).1 = '{' :: r :=
    by simp [spanP]
  generalize spanP (fun c => c == '{') ('{' :: cs) = A at h hs hne
  obtain ⟨r, hr⟩ := hne
  simp only at h
  split at h
  · rename_i hc
    simp at h
    obtain ⟨h1, h2, h3⟩ := h
    have : r = [] := by
      have := hc.1
      rw [hr] at this
      simpa using this
    subst this
    subst h2
    rw [hr] at h1
    subst h1
    apply goodRead_exact
    · rw [← hs, hr, h3]
    · simp
  · split at h
    · rename_i x y hxy
      simp at h
      obtain ⟨h1, h2, rfl⟩ := h
      subst h2; subst h1
      apply goodRead_exact
      · rw [← hs, ← (templateLoop_split _ _ _ _ hxy).1]; simp
      · simp [hr]
    · simp at h

theorem ws_hash : isWhitespaceChar '#' = false := by decide
theorem ws_dash : isWhitespaceChar '-' = false := by decide

theorem readToken_good (U : Unicode) (d : Nat) (c : Char) (cs consumed lit rest : Str)
    (h : readToken U d c cs = .tok consumed lit rest) : GoodRead c cs consumed lit rest := by
  unfold readToken at h
  have C1 : Read.chars 1 (c :: cs) = .tok consumed lit rest → GoodRead c cs consumed lit rest :=
    goodRead_chars 1 c cs consumed lit rest (by decide)
  have C2 : Read.chars 2 (c :: cs) = .tok consumed lit rest → GoodRead c cs consumed lit rest :=
    goodRead_chars 2 c cs consumed lit rest (by decide)
  have CB : ∀ a b, readBackQuoted (c :: cs) = some (a, b) → a ++ b = c :: cs ∧ a ≠ [] := by
    intro a b hab
    obtain ⟨h1, body, h2, _⟩ := readBackQuoted_split _ _ _ _ hab
    exact ⟨h1, by simp [h2]⟩
  have CS : ∀ a b, readString (c :: cs) = some (a, b) → a ++ b = c :: cs ∧ a ≠ [] := by
    intro a b hab
    obtain ⟨h1, body, h2, _⟩ := readString_split _ _ _ _ hab
    exact ⟨h1, by simp [h2]⟩
  have CM : ∀ a b, readMultilineString (c :: cs) = some (a, b) → a ++ b = c :: cs ∧ a ≠ [] := by
    intro a b hab
    match cs, hab with
    | d :: e :: r, hab =>
      obtain ⟨h1, body, h2, _⟩ := readMultilineString_split _ _ _ _ _ _ hab
      exact ⟨h1, by simp [h2]⟩
  have CC : ∀ a b, readMultilineComment (c :: cs) = some (a, b) → a ++ b = c :: cs ∧ a ≠ [] := by
    intro a b hab
    obtain ⟨h1, body, h2, _⟩ := readMultilineComment_split _ _ _ hab
    exact ⟨h1, by simp [h2]⟩
  simp only at h
  split at h
  · split at h
    · split at h
      · rename_i dd heq hd
        apply goodRead_number _ _ _ _ _ _ h
        cases cs with
        | nil => simp at heq
        | cons e cs =>
          simp at heq; subst heq
          obtain ⟨l, hl⟩ := readNumber_dot e cs hd
          simp [hl]
      · exact C1 h
    · exact C1 h
  · exact goodRead_comment _ _ _ _ _ ws_hash h (by decide)
  · exact goodRead_option _ _ _ _ _ _ CB h
  · split at h
    · exact goodRead_option _ _ _ _ _ _ CM h
    · exact goodRead_option _ _ _ _ _ _ CS h
  · split at h
    · exact goodRead_option _ _ _ _ _ _ CM h
    · exact goodRead_option _ _ _ _ _ _ CS h
  · split at h
    · exact goodRead_comment _ _ _ _ _ ws_dash h (by decide)
    · exact C1 h
  · split at h
    · exact goodRead_option _ _ _ _ _ _ CC h
    · exact C1 h
  · split at h
    · exact C2 h
    · split at h
      · exact C2 h
      · exact C1 h
  · split at h
    · exact C2 h
    · split at h
      · exact C2 h
      · split at h
        · exact C2 h
        · exact C1 h
  · split at h
    · exact C1 h
    · split at h
      · exact C2 h
      · split at h
        · exact C2 h
        · exact C1 h
  · split at h
    · exact C2 h
    · exact C1 h
  · split at h
    · exact C2 h
    · exact C1 h
  · exact goodRead_parameter U cs _ _ _ h
  · exact goodRead_brace cs _ _ _ h
  · split at h
    · rename_i hd
      apply goodRead_number _ _ _ _ _ _ h
      obtain ⟨l, hl⟩ := readNumber_digit c cs hd
      simp [hl]
    · split at h
      · simp [Read.exact] at h
        obtain ⟨h1, h2, h3⟩ := h
        subst h2; subst h1
        apply goodRead_exact
        · rw [← h3]; exact readIdentifier_split U c cs
        · simp [readIdentifier]
      · exact C1 h

end Verif.Lex
