import Verif.Proofs.LexerSegs
import Verif.Spec.Chars
import Verif.Proofs.Sample
import Verif.Model.Lib
/-!
The tokens of every text are specified (properties C43 and C44).  The vocabulary of the statements is in
`Verif/Spec/Lexeme.lean`.
-/
namespace Verif.Props
open Verif.Spec

/-- Membership of characters by their numbers. -/
theorem mem_map_toNat (c : Char) (l : List Char) : c ∈ l ↔ c.toNat ∈ l.map Char.toNat := by
  constructor
  · exact List.mem_map_of_mem
  · intro h
    obtain ⟨d, hd, e⟩ := List.mem_map.1 h
    rwa [← Char.toNat_inj.1 e]

/-- C43: the classes of characters that the specification of tokens mentions are those of Unicode and ASCII. -/
theorem C43_character_classes (c : Char) :
    (isWhitespaceChar c = true ↔ c.toNat ∈ whiteSpaceCodePoints) ∧
    (isDigitChar c = true ↔ c ∈ decimalDigits) ∧
    (isAsciiLetter c = true ↔ c ∈ englishLetters) := by
  refine ⟨?_, ?_, ?_⟩
  · simp only [isWhitespaceChar, whiteSpaceCodePoints, Bool.or_eq_true, Bool.and_eq_true, decide_eq_true_eq,
      beq_iff_eq, List.mem_cons, List.not_mem_nil, or_false]
    omega
  · rw [mem_map_toNat, show decimalDigits.map Char.toNat = List.range' 48 10 from by decide +kernel,
      List.mem_range'_1]
    simp only [isDigitChar, Bool.and_eq_true, decide_eq_true_eq, Char.le_def, UInt32.le_iff_toNat_le]
    show 48 ≤ c.toNat ∧ c.toNat ≤ 57 ↔ _
    omega
  · rw [mem_map_toNat, show englishLetters.map Char.toNat = List.range' 65 26 ++ List.range' 97 26 from by decide +kernel,
      List.mem_append, List.mem_range'_1, List.mem_range'_1]
    simp only [isAsciiLetter, Bool.or_eq_true, Bool.and_eq_true, decide_eq_true_eq, Char.le_def, UInt32.le_iff_toNat_le]
    show (97 ≤ c.toNat ∧ c.toNat ≤ 122) ∨ (65 ≤ c.toNat ∧ c.toNat ≤ 90) ↔ _
    omega

/-- The no-break space, the ideographic space and the vertical tab are white space; the zero width space is not;
ARABIC-INDIC DIGIT THREE is no digit. -/
example : isWhitespaceChar '\u00A0' = true ∧ isWhitespaceChar '\u3000' = true ∧ isWhitespaceChar '\x0B' = true ∧
    isWhitespaceChar '\u200B' = false ∧ isDigitChar '\u0663' = false := by decide

theorem isTokenization_iff (U : Unicode) (code : Str) (gaps lits : List Str) :
    IsTokenization U code gaps lits ↔ Lex.Segs U none 0 code gaps lits [] := by
  rw [Lex.segs_iff]
  simp only [List.append_nil]
  exact ⟨fun h => ⟨h.count, h.blank, h.text, h.token⟩, fun h => ⟨h.1, h.2.1, h.2.2.1, h.2.2.2⟩⟩

theorem stuckAt_iff (U : Unicode) (code : Str) (lits : List Str) (stuck : Str) :
    StuckAt U code lits stuck ↔ ∃ gaps, Lex.Segs U none 0 code gaps lits stuck ∧ stuck ≠ [] ∧
      Lex.NoToken U (openBrackets U none 0 lits) stuck := by
  constructor
  · rintro ⟨gaps, h1, h2, h3, h4, ⟨c, r, rfl, hc⟩, h6⟩
    exact ⟨gaps, (Lex.segs_iff ..).2 ⟨h1, h2, h3, h4⟩, by simp, .inr ⟨⟨c, r, rfl, hc⟩, h6⟩⟩
  · rintro ⟨gaps, h1, h2, h3⟩
    obtain ⟨k1, k2, k3, k4⟩ := (Lex.segs_iff ..).1 h1
    rcases h3 with h3 | ⟨h3, h4⟩
    · exact absurd h3 h2
    · exact ⟨gaps, k1, k2, k3, k4, h3, h4⟩

theorem fail_of_stuck {U : Unicode} (hU : U.Lawful) {d : Nat} {stuck : Str} (hne : stuck ≠ [])
    (h : Lex.NoToken U d stuck) : ∃ c cs consumed m, stuck = c :: cs ∧ isWhitespaceChar c = false ∧
      Lex.readToken U d c cs = .fail consumed m := by
  rcases h with h | ⟨⟨c, cs, rfl, hc⟩, h⟩
  · exact absurd h hne
  · obtain ⟨consumed, m, hm⟩ := (Lex.noToken_fail hU hc).1 h
    exact ⟨c, cs, consumed, m, rfl, hc, hm⟩

/-- At a text without a token the tokenizer reports an error. -/
theorem lexFrom_stuck {U : Unicode} (hU : U.Lawful) {d : Nat} {stuck : Str} (hne : stuck ≠ [])
    (h : Lex.NoToken U d stuck) (p : Nat × Nat) (last : Option Str) :
    ∃ c cs consumed m, stuck = c :: cs ∧ Lex.readToken U d c cs = .fail consumed m ∧
      Lex.lexFrom U p d last stuck = .err ⟨(Lex.advanceAll p consumed).1, (Lex.advanceAll p consumed).2, m⟩ := by
  obtain ⟨c, cs, consumed, m, rfl, hc, hm⟩ := fail_of_stuck hU hne h
  refine ⟨c, cs, consumed, m, rfl, hm, ?_⟩
  rw [Lex.lexFrom_cons _ _ _ _ _ _ hc]
  have hs : Lex.stepDepthLit U d last c cs ≠ none := by
    intro hs
    unfold Lex.stepDepthLit at hs
    split at hs
    · rename_i hc'
      obtain ⟨rfl, k1, k2, k3⟩ := hc'
      simp [Lex.readToken, k1, k2, k3, Lex.Read.chars] at hm
    · split at hs <;> simp at hs
  cases hs' : Lex.stepDepthLit U d last c cs with
  | none => exact absurd hs' hs
  | some d' => simp only [hm]

theorem first_bracket_panics {U : Unicode} (hU : U.Lawful) {code : Str} {gaps ls : List Str} {stuck : Str}
    (h : Lex.Segs U none 0 code gaps (['<'] :: ls) stuck) : tokenize U code = .panic .noLastToken := by
  show Lex.tokenize U code = _
  cases h with
  | @cons _ _ w _ rest _ _ _ hw hl t =>
    obtain ⟨c, cs, v, rest', h1, h2, h3, h4, h5⟩ := Lex.lexeme_read hU 0 hl
    simp at h1
    obtain ⟨rfl, rfl⟩ := h1
    rw [Lex.tokenize_lexFrom, Lex.lexFrom_ws _ _ _ _ _ _ hw]
    show Lex.lexFrom U _ 0 none ('<' :: rest) = _
    rw [Lex.lexFrom_cons _ _ _ _ _ _ (by decide)]
    have hn : ∀ e, e = '<' ∨ e = '=' ∨ e = '>' → rest.head? ≠ some e := by
      intro e he hh
      cases rest with
      | nil => simp at hh
      | cons f r =>
        simp at hh
        subst hh
        rcases he with rfl | rfl | rfl <;> simp [Lex.readToken, Lex.Read.chars] at h5
    have : Lex.stepDepthLit U 0 none '<' rest = none := by
      simp [Lex.stepDepthLit, hn '<' (by simp), hn '=' (by simp), hn '>' (by simp)]
    rw [this]

theorem segs_tokenize {U : Unicode} (hU : U.Lawful) {code : Str} {gaps lits : List Str} {stuck : Str}
    (h : Lex.Segs U none 0 code gaps lits stuck) (hl : lits.head? ≠ some ['<']) :
    ∃ toks last, toks.map (·.literal) = lits ∧ tokenize U code =
      Lex.prepend toks (Lex.lexFrom U (Lex.advanceAll (1, 1) (interleave gaps lits))
        (openBrackets U none 0 lits) last stuck) := by
  obtain ⟨toks, last, h1, -, h3⟩ := Lex.segs_lexFrom hU h (1, 1) (fun _ => hl)
  exact ⟨toks, last, h1, by rw [← h3, ← Lex.tokenize_lexFrom]; rfl⟩

/-- C43: `tokenize` succeeds with the literals `lits` if and only if the text consists of these literals, each of
them a token of its kind at its place, with white space around them, and the first of them is not `<`. -/
theorem C43_tokens_exact (U : Unicode) (hU : U.Lawful) (code : Str) (lits : List Str) :
    (∃ toks, tokenize U code = .ok (toks ++ [Token.eof]) ∧ toks.map (·.literal) = lits) ↔
      (∃ gaps, IsTokenization U code gaps lits) ∧ lits.head? ≠ some ['<'] := by
  constructor
  · rintro ⟨toks, h1, h2⟩
    obtain ⟨gaps, ls, stuck, k1, k2⟩ := Lex.segs_total hU code none 0
    have hb : ls.head? ≠ some ['<'] := by
      intro hh
      cases ls with
      | nil => simp at hh
      | cons l ls =>
        simp at hh
        subst hh
        rw [first_bracket_panics hU k1] at h1
        simp at h1
    obtain ⟨toks', last, k3, k4⟩ := segs_tokenize hU k1 hb
    by_cases hs : stuck = []
    · subst hs
      rw [Lex.lexFrom_nil] at k4
      simp only [Lex.prepend] at k4
      rw [k4] at h1
      simp at h1
      subst h1
      rw [k3] at h2
      subst h2
      exact ⟨⟨gaps, (isTokenization_iff ..).2 k1⟩, hb⟩
    · obtain ⟨c, cs, consumed, m, -, -, k5⟩ := lexFrom_stuck hU hs k2
        (Lex.advanceAll (1, 1) (interleave gaps ls)) last
      rw [k5] at k4
      rw [k4] at h1
      simp [Lex.prepend] at h1
  · rintro ⟨⟨gaps, h1⟩, h2⟩
    obtain ⟨toks, last, k3, k4⟩ := segs_tokenize hU ((isTokenization_iff ..).1 h1) h2
    rw [Lex.lexFrom_nil] at k4
    exact ⟨toks, k4, k3⟩

/-- A text with literals of many kinds. -/
def kindsCode : Str :=
  "ab1 >=.5e+ 'a\\'' \"\"\"x\"y\"\"\" `p q`@@s{{u}}{1|>-- c \n/*/ARRAY<STRUCT<a>>>>".toList

/-- Its tokens. -/
def kindsTokens : List Token :=
  [⟨1, 1, "ab1".toList⟩, ⟨1, 5, ">=".toList⟩, ⟨1, 7, ".5e+".toList⟩,
    ⟨1, 12, "'a\\''".toList⟩, ⟨1, 18, "\"\"\"x\"y\"\"\"".toList⟩, ⟨1, 28, "`p q`".toList⟩,
    ⟨1, 33, "@@s".toList⟩, ⟨1, 36, "{{u}}".toList⟩, ⟨1, 41, "{".toList⟩, ⟨1, 42, "1".toList⟩,
    ⟨1, 43, "|>".toList⟩, ⟨1, 45, "-- c".toList⟩, ⟨2, 1, "/*/".toList⟩, ⟨2, 4, "ARRAY".toList⟩,
    ⟨2, 9, "<".toList⟩, ⟨2, 10, "STRUCT".toList⟩, ⟨2, 16, "<".toList⟩, ⟨2, 17, "a".toList⟩,
    ⟨2, 18, ">".toList⟩, ⟨2, 19, ">".toList⟩, ⟨2, 20, ">>".toList⟩]

example : ∃ gaps, IsTokenization Unicode.sample kindsCode gaps
    (["ab1", ">=", ".5e+", "'a\\''", "\"\"\"x\"y\"\"\"", "`p q`", "@@s", "{{u}}", "{", "1", "|>", "-- c", "/*/",
      "ARRAY", "<", "STRUCT", "<", "a", ">", ">", ">>"].map String.toList) :=
  ((C43_tokens_exact Unicode.sample Unicode.sample_lawful kindsCode _).1
    ⟨kindsTokens, by decide +kernel, rfl⟩).1

/-- The same for a short text, from the kinds of the specification alone. -/
example : IsTokenization Unicode.sample "x>=\t.5".toList ([[], [], ['\t'], []]) [['x'], ['>', '='], ['.', '5']] where
  count := rfl
  blank := by
    intro g hg c hc
    simp at hg
    rcases hg with rfl | rfl | rfl
    · simp at hc
    · simp at hc; subst hc; decide
    · simp at hc
  text := rfl
  token := by
    intro i l hl
    match i, hl with
    | 0, hl =>
      simp at hl; subst hl
      refine .word ⟨'x', [], rfl, .inl (by decide), by simp⟩ ?_
      intro c r hr
      have : c = '>' := by simp [interleave] at hr; exact hr.1.symm
      subst this
      simp [InWord]
      decide
    | 1, hl =>
      simp at hl; subst hl
      exact .double (by decide)
    | 2, hl =>
      simp at hl; subst hl
      refine .number ⟨[], ['.', '5'], [], rfl, by simp [Digits], .inr ⟨['5'], rfl, ?_⟩, .inl rfl,
        fun _ => ⟨'5', [], rfl⟩, ?_, ?_, ?_, ?_⟩
      · intro c hc; simp at hc; subst hc; decide
      all_goals simp [NotBefore, interleave]

/-- C43: there is only one way to read a text as tokens. -/
theorem C43_unambiguous (U : Unicode) (hU : U.Lawful) (code : Str) (gaps lits gaps' lits' : List Str)
    (h : IsTokenization U code gaps lits) (h' : IsTokenization U code gaps' lits') :
    gaps = gaps' ∧ lits = lits' := by
  obtain ⟨h1, h2, -⟩ := Lex.segs_unique hU ((isTokenization_iff ..).1 h) ((isTokenization_iff ..).1 h')
    (.inl rfl) (.inl rfl)
  exact ⟨h1, h2⟩

/-- C44: every text is read as tokens to its end, or its tokens end in front of a text that starts with no token;
never both, and the place is determined by the text. -/
theorem C44_ends_or_stuck (U : Unicode) (hU : U.Lawful) (code : Str) :
    ((∃ gaps lits, IsTokenization U code gaps lits) ∨ ∃ lits stuck, StuckAt U code lits stuck) ∧
    (∀ gaps lits lits' stuck, IsTokenization U code gaps lits → ¬ StuckAt U code lits' stuck) ∧
    (∀ lits stuck lits' stuck', StuckAt U code lits stuck → StuckAt U code lits' stuck' →
      lits = lits' ∧ stuck = stuck') := by
  refine ⟨?_, ?_, ?_⟩
  · obtain ⟨gaps, ls, stuck, k1, k2⟩ := Lex.segs_total hU code none 0
    by_cases hs : stuck = []
    · subst hs
      exact .inl ⟨gaps, ls, (isTokenization_iff ..).2 k1⟩
    · exact .inr ⟨ls, stuck, (stuckAt_iff ..).2 ⟨gaps, k1, hs, k2⟩⟩
  · intro gaps lits lits' stuck h h'
    obtain ⟨gaps', h1, h2, h3⟩ := (stuckAt_iff ..).1 h'
    obtain ⟨-, -, h4⟩ := Lex.segs_unique hU ((isTokenization_iff ..).1 h) h1 (.inl rfl) h3
    exact h2 h4.symm
  · intro lits stuck lits' stuck' h h'
    obtain ⟨gaps, h1, h2, h3⟩ := (stuckAt_iff ..).1 h
    obtain ⟨gaps', h1', h2', h3'⟩ := (stuckAt_iff ..).1 h'
    exact (Lex.segs_unique hU h1 h1' h3 h3').2

theorem namelessParameter_unique {U : Unicode} {stuck : Str} {n m : Nat} (h : NamelessParameter U stuck n)
    (h' : NamelessParameter U stuck m) : n = m := by
  obtain ⟨r, rfl, -, h2⟩ := h
  obtain ⟨r', e, -, h2'⟩ := h'
  have k1 := Lex.spanP_replicate '@' n r (fun c t hr hc => h2 c t hr (.inl hc))
  have k2 := Lex.spanP_replicate '@' m r' (fun c t hr hc => h2' c t hr (.inl hc))
  rw [e, k2] at k1
  have := congrArg (fun x => x.1.length) k1
  simpa using this.symm

/-- C44: `tokenize` reports an error if and only if the tokens of the text end in front of a text that starts with no
token, and the error is the one of this place. -/
theorem C44_error_exact (U : Unicode) (hU : U.Lawful) (code : Str) (e : Err) :
    tokenize U code = .err e ↔
      ∃ lits before stuck, StuckAt U code lits stuck ∧ lits.head? ≠ some ['<'] ∧ code = before ++ stuck ∧
        StuckError U before stuck e := by
  have key : ∀ {lits gaps stuck c cs consumed m}, Lex.Segs U none 0 code gaps lits stuck →
      stuck = c :: cs → Lex.readToken U (openBrackets U none 0 lits) c cs = .fail consumed m →
      ∀ e', (e' = (⟨(Lex.advanceAll (Lex.advanceAll (1, 1) (interleave gaps lits)) consumed).1,
          (Lex.advanceAll (Lex.advanceAll (1, 1) (interleave gaps lits)) consumed).2, m⟩ : Err) ↔
        StuckError U (interleave gaps lits) stuck e') := by
    intro lits gaps stuck c cs consumed m hseg hst hr e'
    rw [← Lex.advanceAll_append, Lex.advanceAll_spec]
    rcases Lex.readToken_fail _ _ _ _ _ _ hr with ⟨rfl, rfl⟩ | ⟨rfl, rest, h1, h2, h3, h4⟩
    · have hno : ¬ ∃ n, NamelessParameter U stuck n := by
        rintro ⟨n, rest, h1, h2, h3⟩
        obtain ⟨k, rfl⟩ : ∃ k, n = k + 1 := ⟨n - 1, by omega⟩
        have hsp := Lex.spanP_replicate '@' (k + 1) rest (fun c t hr hc => h3 c t hr (.inl hc))
        rw [hst] at h1
        have hc : c = '@' := by simp [List.replicate_succ] at h1; exact h1.1
        subst hc
        rw [← h1] at hsp
        simp only [Lex.readToken, Lex.readParameter, hsp] at hr
        cases rest with
        | nil => simp at hr
        | cons f r =>
          have := h3 f r rfl
          simp only [not_or] at this
          have hi : Lex.identStart U f = false := by
            cases hi : Lex.identStart U f with
            | false => rfl
            | true => exact absurd ((Lex.identStart_iff U f).1 hi) this.2.2
          simp [this.2.1, hi] at hr
      rw [← hst]
      constructor
      · rintro rfl
        exact .inr ⟨hno, rfl⟩
      · rintro (⟨n, h1, -⟩ | ⟨-, h2⟩)
        · exact absurd ⟨n, h1⟩ hno
        · exact h2
    · have hrep : consumed = List.replicate consumed.length '@' :=
        List.eq_replicate_iff.2 ⟨rfl, h3⟩
      have hnp : NamelessParameter U stuck consumed.length := by
        refine ⟨rest, by rw [← hrep, hst, h1], ?_, ?_⟩
        · cases consumed with
          | nil => exact absurd rfl h2
          | cons _ _ => simp
        · intro f r hf
          rcases h4 with rfl | ⟨f', r', rfl, k1, k2, k3, k4⟩
          · simp at hf
          · simp at hf
            obtain ⟨rfl, rfl⟩ := hf
            rintro (hh | hh | hh | hh)
            · exact k1 hh
            · exact k2 hh
            · rw [k3] at hh; simp at hh
            · exact k4 hh
      constructor
      · rintro rfl
        refine .inl ⟨consumed.length, hnp, ?_⟩
        rw [← hrep]
      · rintro (⟨n, h1, h2⟩ | ⟨hno, -⟩)
        · have := namelessParameter_unique h1 hnp
          subst this
          rw [h2, ← hrep]
        · exact absurd ⟨_, hnp⟩ hno
  constructor
  · intro h
    obtain ⟨gaps, ls, stuck, k1, k2⟩ := Lex.segs_total hU code none 0
    have hb : ls.head? ≠ some ['<'] := by
      intro hh
      cases ls with
      | nil => simp at hh
      | cons l ls =>
        simp at hh
        subst hh
        rw [first_bracket_panics hU k1] at h
        simp at h
    obtain ⟨toks', last, k3, k4⟩ := segs_tokenize hU k1 hb
    by_cases hs : stuck = []
    · subst hs
      rw [Lex.lexFrom_nil] at k4
      rw [k4] at h
      simp [Lex.prepend] at h
    · obtain ⟨c, cs, consumed, m, hst, hr, k5⟩ := lexFrom_stuck hU hs k2
        (Lex.advanceAll (1, 1) (interleave gaps ls)) last
      rw [k5] at k4
      rw [k4] at h
      simp [Lex.prepend] at h
      exact ⟨ls, interleave gaps ls, stuck, (stuckAt_iff ..).2 ⟨gaps, k1, hs, k2⟩, hb,
        ((Lex.segs_iff ..).1 k1).2.2.1, (key k1 hst hr e).1 h.symm⟩
  · rintro ⟨lits, before, stuck, h1, h2, h3, h4⟩
    obtain ⟨gaps, k1, hs, k2⟩ := (stuckAt_iff ..).1 h1
    have hbef : before = interleave gaps lits := by
      have := ((Lex.segs_iff ..).1 k1).2.2.1
      rw [h3] at this
      exact List.append_cancel_right this
    subst hbef
    obtain ⟨toks', last, k3, k4⟩ := segs_tokenize hU k1 h2
    obtain ⟨c, cs, consumed, m, hst, hr, k5⟩ := lexFrom_stuck hU hs k2
      (Lex.advanceAll (1, 1) (interleave gaps lits)) last
    rw [k4, k5, (key k1 hst hr e).2 h4]
    rfl

example : ∃ lits before stuck, StuckAt Unicode.sample "SELECT @a, 'b".toList lits stuck ∧
    lits.head? ≠ some ['<'] ∧ "SELECT @a, 'b".toList = before ++ stuck ∧
    StuckError Unicode.sample before stuck ⟨1, 14, .unexpectedEof⟩ :=
  (C44_error_exact Unicode.sample Unicode.sample_lawful _ _).1 (by decide +kernel)

example : ∃ lits before stuck, StuckAt Unicode.sample "SELECT\n @@1".toList lits stuck ∧
    lits.head? ≠ some ['<'] ∧ "SELECT\n @@1".toList = before ++ stuck ∧
    StuckError Unicode.sample before stuck ⟨2, 4, .invalidIdent⟩ :=
  (C44_error_exact Unicode.sample Unicode.sample_lawful _ _).1 (by decide +kernel)

/-- C44: the text without a token starts with a quote, a back quote, `@`, `{` or `/*`. -/
theorem C44_stuck_starts (U : Unicode) (hU : U.Lawful) (code : Str) (lits : List Str) (stuck : Str)
    (h : StuckAt U code lits stuck) :
    (∃ c r, stuck = c :: r ∧ c ∈ ['"', '\'', '`', '@', '{']) ∨ ∃ r, stuck = '/' :: '*' :: r := by
  obtain ⟨gaps, k1, hs, k2⟩ := (stuckAt_iff ..).1 h
  obtain ⟨c, cs, consumed, m, rfl, hc, hr⟩ := fail_of_stuck hU hs k2
  by_cases ha : c ∈ Lex.armed
  · simp only [Lex.armed, List.mem_cons, List.not_mem_nil, or_false] at ha
    rcases ha with rfl | rfl | rfl | rfl | rfl | rfl | rfl | rfl | rfl | rfl | rfl | rfl | rfl | rfl
    all_goals try (exact .inl ⟨_, cs, rfl, by decide⟩)
    · exfalso
      cases cs with
      | nil => simp [Lex.readToken, Lex.Read.chars] at hr
      | cons e r =>
        simp only [Lex.readToken, List.head?_cons, Lex.Read.exact, Lex.Read.chars] at hr
        split at hr <;> simp at hr
    · simp [Lex.readToken] at hr
    · exfalso
      simp only [Lex.readToken, Lex.Read.chars] at hr
      split at hr <;> simp at hr
    · right
      simp only [Lex.readToken, Lex.Read.chars] at hr
      split at hr
      · rename_i hh
        cases cs with
        | nil => simp at hh
        | cons e r =>
          simp at hh
          subst hh
          exact ⟨r, rfl⟩
      · simp at hr
    all_goals
      exfalso
      simp only [Lex.readToken, Lex.Read.chars] at hr
      repeat' split at hr
      all_goals simp at hr
  · exfalso
    rw [Lex.readToken_default _ _ _ _ ha] at hr
    simp only [Lex.Read.exact, Lex.Read.chars] at hr
    repeat' split at hr
    all_goals simp at hr

end Verif.Props
