import Verif.Proofs.LexerClass
import Verif.Proofs.Sample
import Verif.Model.Lib
/-!
Theorems about `tokenize` (properties C01-C11, C27, C28).  `tokenize U code` is the model of the
exported function of src/lib.rs; `U` are the Unicode tables, arbitrary unless a hypothesis says
`U.Lawful`.  The vocabulary of the statements is in `Verif/Spec/Lexer.lean`.
-/
namespace Verif.Props
open Verif.Spec

/-- An input used in the examples below: strings, comments, numbers, brackets, templates. -/
def sampleCode : Str :=
  "-- c1 \nSELECT 'it\\'s', \"\"\"a\"b\"\"\", 1.5e-3, @p, {{x}} /* c2 */\n FROM a.b\t WHERE x >= ARRAY<STRUCT<INT64>>[]; # end".toList

/-- C01: the input is the literals of the tokens with white space between them. -/
theorem C01_tokenize_lossless (U : Unicode) (code : Str) (toks : List Token)
    (h : tokenize U code = .ok toks) :
    ∃ body gaps, toks = body ++ [Token.eof] ∧ gaps.length = body.length + 1 ∧ (∀ g ∈ gaps, AllWs g) ∧
      code = interleave gaps (body.map (·.literal)) := by
  obtain ⟨body, gaps, h1, h2, h3, _, h5, _⟩ :=
    Lex.run_interleave (Lex.tokenize_run h) [] [] (by simp [AllWs]) rfl
  exact ⟨body, gaps, h1, h2, h3, by simpa using h5⟩

example : (match tokenize Unicode.sample sampleCode with | .ok ts => ts.length | _ => 0) = 31 := by
  decide +kernel

/-- C02: in the decomposition of C01 every token carries the position of its first character. -/
theorem C02_token_positions (U : Unicode) (code : Str) (toks : List Token)
    (h : tokenize U code = .ok toks) :
    ∃ body gaps, toks = body ++ [Token.eof] ∧ gaps.length = body.length + 1 ∧ (∀ g ∈ gaps, AllWs g) ∧
      code = interleave gaps (body.map (·.literal)) ∧
      ∀ i t, body[i]? = some t → ∃ before after,
        before = interleave (gaps.take (i + 1)) ((body.map (·.literal)).take i) ∧
        code = before ++ t.literal ++ after ∧
        t.line = lineAfter before ∧ t.column = columnAfter before := by
  obtain ⟨body, gaps, h1, h2, h3, _, h5, h6⟩ :=
    Lex.run_interleave (Lex.tokenize_run h) [] [] (by simp [AllWs]) rfl
  refine ⟨body, gaps, h1, h2, h3, by simpa using h5, ?_⟩
  intro i t hit
  have hl : (body.map (·.literal))[i]? = some t.literal := by simp [hit]
  obtain ⟨after, ha⟩ := Lex.interleave_take gaps _ i t.literal (by simp [h2]) hl
  refine ⟨_, after, rfl, ?_, ?_⟩
  · simpa using h5.trans ha
  · simpa using h6 i t hit

example : (tokenize Unicode.sample "a\n  'x\ny' b".toList) =
    .ok [⟨1, 1, ['a']⟩, ⟨2, 3, "'x\ny'".toList⟩, ⟨3, 4, ['b']⟩, Token.eof] := by decide +kernel

theorem position_increases (p s : Str) (hs : s ≠ []) :
    lineAfter p < lineAfter (p ++ s) ∨
      (lineAfter p = lineAfter (p ++ s) ∧ columnAfter p < columnAfter (p ++ s)) := by
  by_cases h : '\n' ∈ s
  · left
    have := List.count_pos_iff.2 h
    simp [lineAfter]
    exact h
  · right
    have h0 : s.count '\n' = 0 := List.count_eq_zero.2 h
    refine ⟨by simp [lineAfter, h0], ?_⟩
    have hall : ∀ c ∈ s.reverse, decide (c ≠ '\n') = true := by
      intro c hc
      simp only [List.mem_reverse] at hc
      simp only [decide_eq_true_eq]
      rintro rfl; exact h hc
    have hl : 0 < s.length := List.length_pos_iff.2 hs
    simp only [columnAfter, List.reverse_append]
    rw [List.takeWhile_append_of_pos hall]
    simp
    omega

/-- C02: tokens are strictly increasing in (line, column) order. -/
theorem C02_positions_increase (U : Unicode) (code : Str) (toks : List Token)
    (h : tokenize U code = .ok toks) :
    ∃ body, toks = body ++ [Token.eof] ∧ ∀ (i j : Nat) (ti tj : Token), i < j → body[i]? = some ti → body[j]? = some tj →
      ti.line < tj.line ∨ (ti.line = tj.line ∧ ti.column < tj.column) := by
  obtain ⟨body, gaps, h1, h2, h3, h4, h5, h6⟩ :=
    Lex.run_interleave (Lex.tokenize_run h) [] [] (by simp [AllWs]) rfl
  refine ⟨body, h1, ?_⟩
  intro i j ti tj hij hi hj
  have hjl : j < body.length := by
    rcases Nat.lt_or_ge j body.length with hh | hh
    · exact hh
    · rw [List.getElem?_eq_none hh] at hj; simp at hj
  have hl : ((body.map (·.literal)).take j)[i]? = some ti.literal := by
    rw [List.getElem?_take_of_lt hij]; simp [hi]
  obtain ⟨after, ha⟩ := Lex.interleave_take (gaps.take (j + 1)) _ i ti.literal (by simp; omega) hl
  rw [List.take_take, List.take_take, Nat.min_eq_left (by omega), Nat.min_eq_left (by omega)] at ha
  have hti := h6 i ti hi
  have htj := h6 j tj hj
  rw [ha] at htj
  simp only [List.nil_append] at hti htj
  obtain ⟨c, l, hlit, _⟩ := h4 ti (List.mem_of_getElem? hi)
  have := position_increases (interleave (gaps.take (i + 1)) ((body.map (·.literal)).take i))
    (ti.literal ++ after) (by simp [hlit])
  rw [← List.append_assoc] at this
  rw [hti.1, hti.2, htj.1, htj.2]
  exact this

/-- C03: the EOF token is last, and it is the only token with an empty literal. -/
theorem C03_eof_token_last (U : Unicode) (code : Str) (toks : List Token)
    (h : tokenize U code = .ok toks) :
    ∃ body, toks = body ++ [⟨usizeMax, usizeMax, []⟩] ∧ ∀ t ∈ body, t.literal ≠ [] := by
  obtain ⟨body, gaps, h1, _, _, h4, _⟩ :=
    Lex.run_interleave (Lex.tokenize_run h) [] [] (by simp [AllWs]) rfl
  refine ⟨body, h1, ?_⟩
  intro t ht
  obtain ⟨c, l, hl, _⟩ := h4 t ht
  simp [hl]

/-- C04, termination: the tokenizer loop always finishes. -/
theorem C04_tokenize_terminates (U : Unicode) (code : Str) : tokenize U code ≠ .timeout := by
  show Lex.tokenize U code ≠ .timeout
  rw [Lex.tokenize_lexFrom]
  exact Lex.scan_no_timeout _ _ _ _ _ _ (by omega)

theorem interleave_length (gaps lits : List Str) (h : gaps.length = lits.length + 1)
    (hne : ∀ l ∈ lits, l ≠ []) : lits.length ≤ (interleave gaps lits).length := by
  induction lits generalizing gaps with
  | nil => simp
  | cons l ls ih =>
    cases gaps with
    | nil => simp at h
    | cons g gs =>
      simp at h
      have h1 := ih gs h (fun x hx => hne x (by simp [hx]))
      have h2 : 0 < l.length := List.length_pos_iff.2 (hne l (by simp))
      simp [interleave]
      omega

/-- C04, bound: at most one token per character, plus EOF. -/
theorem C04_tokenize_count (U : Unicode) (code : Str) (toks : List Token)
    (h : tokenize U code = .ok toks) : toks.length ≤ code.length + 1 := by
  obtain ⟨body, gaps, h1, h2, _, h4, h5, _⟩ :=
    Lex.run_interleave (Lex.tokenize_run h) [] [] (by simp [AllWs]) rfl
  have := interleave_length gaps (body.map (·.literal)) (by simp [h2]) (by
    intro l hl
    simp at hl
    obtain ⟨t, ht, rfl⟩ := hl
    obtain ⟨c, l, hl, _⟩ := h4 t ht
    simp [hl])
  simp at h5
  rw [h1, h5]
  simp at this ⊢
  exact this

example : tokenize Unicode.sample "a+b".toList =
    .ok [⟨1, 1, ['a']⟩, ⟨1, 2, ['+']⟩, ⟨1, 3, ['b']⟩, Token.eof] := by decide +kernel

/-- C05: `tokenize` panics exactly when the first token would be a lone `<`. -/
theorem C05_tokenize_panics_iff (U : Unicode) (code : Str) :
    (∃ p, tokenize U code = .panic p) ↔
      ∃ w rest, AllWs w ∧ code = w ++ '<' :: rest ∧
        rest.head? ≠ some '<' ∧ rest.head? ≠ some '=' ∧ rest.head? ≠ some '>' := by
  show (∃ p, Lex.tokenize U code = .panic p) ↔ _
  rw [Lex.tokenize_lexFrom]
  constructor
  · rintro ⟨p, h⟩
    obtain ⟨w, r, rfl, hw, hr | ⟨c, cs, rfl, hc⟩⟩ := Lex.split_ws code
    · subst hr
      rw [Lex.lexFrom_ws _ _ _ _ _ _ hw, Lex.lexFrom_nil] at h
      simp at h
    · rw [Lex.lexFrom_ws _ _ _ _ _ _ hw, Lex.lexFrom_cons _ _ _ _ _ _ hc] at h
      split at h
      · rename_i h2
        unfold Lex.stepDepthLit at h2
        split at h2
        · rename_i hcond
          obtain ⟨rfl, h3⟩ := hcond
          exact ⟨w, cs, hw, rfl, h3⟩
        · split at h2 <;> simp at h2
      · split at h
        · simp at h
        · exact absurd (Lex.prepend_panic h) (Lex.lexFrom_some_no_panic _ _ _ _ _ _)
  · rintro ⟨w, rest, hw, rfl, h1, h2, h3⟩
    refine ⟨.noLastToken, ?_⟩
    rw [Lex.lexFrom_ws _ _ _ _ _ _ hw, Lex.lexFrom_cons _ _ _ _ _ _ (by decide)]
    simp [Lex.stepDepthLit, h1, h2, h3]

/-- The panic is reachable (a defect of the code). -/
example : tokenize Unicode.sample " < 1".toList = .panic .noLastToken := by decide +kernel
example : ∃ toks, tokenize Unicode.sample "<= 1".toList = .ok toks := ⟨_, rfl⟩

/-- C06: where tokenizer errors point. -/
theorem C06_error_positions (U : Unicode) (code : Str) (e : Err) (h : tokenize U code = .err e) :
    (e.msg = .unexpectedEof ∧ e.line = lineAfter code ∧ e.column = columnAfter code) ∨
    (e.msg = .invalidIdent ∧ ∃ x y, code = x ++ '@' :: y ∧
      e.line = lineAfter (x ++ ['@']) ∧ e.column = columnAfter (x ++ ['@']) ∧
      (y = [] ∨ ∃ c r, y = c :: r ∧ c ≠ '@' ∧ c ≠ '`' ∧ U.isAlphabetic c = false ∧ c ≠ '_')) := by
  have h' : Lex.tokenize U code = .err e := h
  rw [Lex.tokenize_lexFrom] at h'
  rcases Lex.lexFrom_err U code _ _ _ e [] h' rfl with h | ⟨h1, x, y, h2, ⟨h3, h4⟩, h5⟩
  · left; simpa using h
  · right; exact ⟨h1, x, y, h2, by simpa using h3, by simpa using h4, h5⟩

example : tokenize Unicode.sample "a\n 'b".toList = .err ⟨2, 4, .unexpectedEof⟩ := by decide +kernel
example : tokenize Unicode.sample "a\n @@1".toList = .err ⟨2, 4, .invalidIdent⟩ := by decide +kernel

theorem eof_literal {t : Token} (h : t.literal ≠ []) : t ≠ Token.eof := by
  rintro rfl; exact h rfl

/-- C07: every token starting with a quote is a complete string literal ended by the first unescaped
closing quote; it is a triple quoted one exactly when it starts with three quotes. -/
theorem C07_string_extent (U : Unicode) (code : Str) (toks : List Token)
    (h : tokenize U code = .ok toks) (t : Token) (ht : t ∈ toks) (q : Char) (hq : q = '"' ∨ q = '\'')
    (hl : t.literal.head? = some q) :
    ∃ before after, Occurs code t before after ∧
      ((∃ body, QuotedThrice q t.literal body) ∨
       (∃ body, QuotedOnce q t.literal body ∧ ¬ (body = [] ∧ after.head? = some q))) := by
  have hne : t.literal ≠ [] := by intro hh; rw [hh] at hl; simp at hl
  obtain ⟨d, before, after, c, cs, consumed, rest, h1, h2, h3, h4, w, h5, h6⟩ :=
    Lex.mem_token_origin h ht (eof_literal hne)
  refine ⟨before, after, h1, ?_⟩
  have hc : c = q := by
    have := congrArg List.head? h2
    cases hlit : t.literal with
    | nil => exact absurd hlit hne
    | cons e es => rw [hlit] at this hl; simp at this hl; rw [← this, hl]
  subst hc
  have hread : Lex.readToken U d c cs =
      (if cs.head? = some c ∧ cs.tail.head? = some c then Lex.Read.ofOption (c :: cs) (Lex.readMultilineString (c :: cs))
       else Lex.Read.ofOption (c :: cs) (Lex.readString (c :: cs))) := by
    rcases hq with rfl | rfl <;> rfl
  rw [hread] at h3
  split at h3
  · rename_i hcond
    left
    match cs, hcond with
    | c1 :: c2 :: r, hcond =>
      simp at hcond
      obtain ⟨e1, e2⟩ := hcond
      subst e1
      subst e2
      cases ho : Lex.readMultilineString (c2 :: c2 :: c2 :: r) with
      | none => rw [ho] at h3; simp [Lex.Read.ofOption] at h3
      | some ab =>
        obtain ⟨a, b⟩ := ab
        rw [ho] at h3
        simp [Lex.Read.ofOption] at h3
        obtain ⟨_, hl', _⟩ := h3
        obtain ⟨_, body, k1, k2, k3⟩ := Lex.readMultilineString_split _ _ _ _ _ _ ho
        refine ⟨body, ?_, ?_, ?_⟩
        · rw [← hl', k1]
        · rw [← Lex.parity_spec]; exact k2
        · intro x y hxy hlt
          rw [← Lex.parity_spec]; exact k3 x y hxy hlt
  · rename_i hcond
    right
    cases ho : Lex.readString (c :: cs) with
    | none => rw [ho] at h3; simp [Lex.Read.ofOption] at h3
    | some ab =>
      obtain ⟨a, b⟩ := ab
      rw [ho] at h3
      simp [Lex.Read.ofOption] at h3
      obtain ⟨_, hl', _⟩ := h3
      obtain ⟨_, body, k1, k2, k3⟩ := Lex.readString_split _ _ _ _ ho
      refine ⟨body, ⟨?_, ?_, ?_⟩, ?_⟩
      · rw [← hl', k1]
      · rw [← Lex.parity_spec]; exact k2
      · intro x y hxy
        rw [← Lex.parity_spec]; exact k3 x y hxy
      · rintro ⟨rfl, ha⟩
        apply hcond
        rw [← hl', k1] at h2
        simp at h2
        rw [← h2]
        simpa using ha

/-- C07, completeness: any properly closed string is accepted as one token, whatever it contains. -/
theorem C07_string_complete (U : Unicode) (q : Char) (hq : q = '"' ∨ q = '\'') (l body : Str)
    (h : QuotedThrice q l body ∨ (QuotedOnce q l body)) :
    tokenize U l = .ok [⟨1, 1, l⟩, Token.eof] := by
  show Lex.tokenize U l = _
  have hws : isWhitespaceChar q = false := by rcases hq with rfl | rfl <;> decide
  have hstep : ∀ cs, Lex.stepDepthLit U 0 none q cs = some 0 := by
    intro cs
    rcases hq with rfl | rfl <;> simp [Lex.stepDepthLit]
  have hread : ∀ cs, Lex.readToken U 0 q cs =
      (if cs.head? = some q ∧ cs.tail.head? = some q then Lex.Read.ofOption (q :: cs) (Lex.readMultilineString (q :: cs))
       else Lex.Read.ofOption (q :: cs) (Lex.readString (q :: cs))) := by
    intro cs
    rcases hq with rfl | rfl <;> rfl
  rcases h with ⟨rfl, h2, h3⟩ | ⟨rfl, h2, h3⟩
  · rw [Lex.tokenize_lexFrom, Lex.lexFrom_cons _ _ _ _ _ _ hws, hstep, hread]
    have := Lex.multilineStringLoop_complete q body false (by rw [Lex.parity_spec]; exact h2)
      (fun x y hxy hlt => by rw [Lex.parity_spec]; exact h3 x y hxy hlt) []
    simp [Lex.readMultilineString, this, Lex.Read.ofOption, Lex.lexFrom_nil, Lex.prepend]
  · rw [Lex.tokenize_lexFrom, Lex.lexFrom_cons _ _ _ _ _ _ hws, hstep, hread]
    have hnot : ¬ ((body ++ [q]).head? = some q ∧ (body ++ [q]).tail.head? = some q) := by
      rintro ⟨e1, e2⟩
      cases body with
      | nil => simp at e2
      | cons c cs =>
        simp at e1
        subst e1
        have := h3 [] cs rfl
        revert this
        decide
    rw [if_neg hnot]
    have := Lex.stringLoop_complete q body false (by rw [Lex.parity_spec]; exact h2)
      (fun x y hxy => by rw [Lex.parity_spec]; exact h3 x y hxy) []
    simp [Lex.readString, this, Lex.Read.ofOption, Lex.lexFrom_nil, Lex.prepend]

example : tokenize Unicode.sample "'a\\'b\n\"c' 'd'".toList =
    .ok [⟨1, 1, "'a\\'b\n\"c'".toList⟩, ⟨2, 5, "'d'".toList⟩, Token.eof] := by decide +kernel
example : tokenize Unicode.sample "'''a''b'''''".toList =
    .ok [⟨1, 1, "'''a''b'''".toList⟩, ⟨1, 11, "''".toList⟩, Token.eof] := by decide +kernel

/-- C08, line comments: the literal has no newline and no trailing white space, and between it and the
next newline (or the end of the input) there is only white space. -/
theorem C08_line_comment_extent (U : Unicode) (code : Str) (toks : List Token)
    (h : tokenize U code = .ok toks) (t : Token) (ht : t ∈ toks) (hl : IsLineComment t.literal) :
    ∃ before after w rest, Occurs code t before after ∧ '\n' ∉ t.literal ∧
      (∀ x c, t.literal = x ++ [c] → isWhitespaceChar c = false) ∧
      after = w ++ rest ∧ AllWs w ∧ '\n' ∉ w ∧ (rest = [] ∨ ∃ r, rest = '\n' :: r) := by
  have hne : t.literal ≠ [] := by rcases hl with ⟨r, hr⟩ | ⟨r, hr⟩ <;> simp [hr]
  obtain ⟨d, before, after, c, cs, consumed, rest, h1, h2, h3, h4, w, h5, h6⟩ :=
    Lex.mem_token_origin h ht (eof_literal hne)
  have hs := Lex.readToken_comment_shape U d c cs (Lex.readToken_line_comment _ _ _ _ _ _ _ h3 hl)
  rw [h3] at hs
  simp only [Lex.Read.tok.injEq] at hs
  obtain ⟨k1, k2, k3⟩ := hs
  have hall := Lex.spanP_fst_all (fun c => c != '\n') (c :: cs)
  have hn : '\n' ∉ consumed := by
    intro hm
    rw [k1] at hm
    have := hall _ hm
    simp at this
  refine ⟨before, after, w, rest, h1, ?_, ?_, ?_, h5, ?_, ?_⟩
  · intro hm; apply hn; rw [h6]; simp [hm]
  · intro x e hx
    rw [k2] at hx
    exact Lex.trimEnd_last _ _ _ hx
  · rw [h6, ← h2] at h4
    rw [List.append_assoc] at h4
    exact (List.append_cancel_left h4).symm
  · intro hm; apply hn; rw [h6]; simp [hm]
  · cases hr : rest with
    | nil => exact .inl rfl
    | cons e r =>
      right
      rw [hr] at k3
      have := Lex.spanP_snd_head (fun c => c != '\n') (c :: cs) e r k3.symm
      simp at this
      exact ⟨r, by rw [this]⟩

/-- C08, block comments: the literal ends in the first `*/` it contains (which may overlap the opening
`/*`, so `/*/` is a complete comment). -/
theorem C08_block_comment_extent (U : Unicode) (code : Str) (toks : List Token)
    (h : tokenize U code = .ok toks) (t : Token) (ht : t ∈ toks) (r : Str)
    (hl : t.literal = '/' :: '*' :: r) :
    ∃ before after body, Occurs code t before after ∧ t.literal = body ++ ['*', '/'] ∧
      ∀ x y, x ++ '*' :: '/' :: y = t.literal → x = body := by
  have hne : t.literal ≠ [] := by simp [hl]
  obtain ⟨d, before, after, c, cs, consumed, rest, h1, h2, h3, h4, w, h5, h6⟩ :=
    Lex.mem_token_origin h ht (eof_literal hne)
  have hc : c = '/' ∧ cs = '*' :: (r ++ after) := by
    rw [hl] at h2
    simp at h2
    exact ⟨h2.1.symm, h2.2.symm⟩
  obtain ⟨rfl, rfl⟩ := hc
  have hread : Lex.readToken U d '/' ('*' :: (r ++ after)) =
      Lex.Read.ofOption ('/' :: '*' :: (r ++ after)) (Lex.readMultilineComment ('/' :: '*' :: (r ++ after))) := rfl
  rw [hread] at h3
  cases ho : Lex.readMultilineComment ('/' :: '*' :: (r ++ after)) with
  | none => rw [ho] at h3; simp [Lex.Read.ofOption] at h3
  | some ab =>
    obtain ⟨a, b⟩ := ab
    rw [ho] at h3
    simp [Lex.Read.ofOption] at h3
    obtain ⟨_, hl', _⟩ := h3
    obtain ⟨_, body, k1, k2⟩ := Lex.readMultilineComment_split _ _ _ ho
    refine ⟨before, after, body, h1, by rw [← hl', k1], ?_⟩
    intro x y hxy
    rw [← hl', k1] at hxy
    exact k2 x y hxy

example : tokenize Unicode.sample "/*/ a */".toList =
    .ok [⟨1, 1, "/*/".toList⟩, ⟨1, 5, ['a']⟩, ⟨1, 7, ['*']⟩, ⟨1, 8, ['/']⟩, Token.eof] := by decide +kernel
example : tokenize Unicode.sample "a -- b \t\n# /* c".toList =
    .ok [⟨1, 1, ['a']⟩, ⟨1, 3, "-- b".toList⟩, ⟨2, 1, "# /* c".toList⟩, Token.eof] := by decide +kernel

/-- The literals of a successful tokenization, the kind of error otherwise: everything but positions. -/
def shape : Out (List Token) → Out (List Str)
  | .ok r => .ok (r.map (·.literal))
  | .err e => .err ⟨0, 0, e.msg⟩
  | .panic p => .panic p
  | .timeout => .timeout

/-- C09: white space before the first token does not matter. -/
theorem C09_leading_whitespace (U : Unicode) (w code : Str) (hw : AllWs w) :
    shape (tokenize U (w ++ code)) = shape (tokenize U code) := by
  show Lex.erase (Lex.tokenize U (w ++ code)) = Lex.erase (Lex.tokenize U code)
  rw [Lex.tokenize_lexFrom, Lex.tokenize_lexFrom, Lex.lexFrom_ws _ _ _ _ _ _ hw]
  exact Lex.lexFrom_erase _ _ _ _ _ _

theorem tokenize_body {U : Unicode} {a : Str} {ta : List Token} (ha : tokenize U a = .ok ta) :
    ∃ body, ta = body ++ [Token.eof] := by
  obtain ⟨body, h, _⟩ := C03_eof_token_last U a ta ha
  exact ⟨body, h⟩

theorem lastLit_none (body : List Token) :
    Lex.lastLit none body = (body.map (·.literal)).getLast? := by
  unfold Lex.lastLit
  cases h : body.getLast? <;> simp [h]

/-- C09: white space after the last token does not matter. -/
theorem C09_trailing_whitespace (U : Unicode) (hU : U.Lawful) (code w : Str) (hw : AllWs w)
    (toks : List Token) (h : tokenize U code = .ok toks) : tokenize U (code ++ w) = .ok toks := by
  obtain ⟨body, rfl⟩ := tokenize_body h
  have := Lex.lexFrom_append hU w [] hw (.inr rfl) (Lex.tokenize_run h) body rfl (fun _ => .inr rfl)
  show Lex.tokenize U (code ++ w) = _
  rw [Lex.tokenize_lexFrom]
  rw [List.append_nil] at this
  rw [this, Lex.lexFrom_nil]
  rfl

/-- C09: one non-empty gap between tokens may be replaced by another; after a line comment both must
contain a newline. -/
theorem C09_gap (U : Unicode) (hU : U.Lawful) (a b w w' : Str) (ta : List Token)
    (ha : tokenize U a = .ok (ta ++ [Token.eof])) (hw : AllWs w) (hw' : AllWs w') (hne : w ≠ []) (hne' : w' ≠ [])
    (hc : ∀ t, ta.getLast? = some t → IsLineComment t.literal → '\n' ∈ w ∧ '\n' ∈ w') :
    shape (tokenize U (a ++ w ++ b)) = shape (tokenize U (a ++ w' ++ b)) := by
  show Lex.erase (Lex.tokenize U (a ++ w ++ b)) = Lex.erase (Lex.tokenize U (a ++ w' ++ b))
  have hlast : ∀ l, Lex.lastLit none ta = some l → IsLineComment l → '\n' ∈ w ∧ '\n' ∈ w' := by
    intro l hl hlc
    rw [lastLit_none, List.getLast?_map] at hl
    cases hg : ta.getLast? with
    | none => rw [hg] at hl; simp at hl
    | some t =>
      rw [hg] at hl
      simp at hl
      exact hc t hg (by rw [hl]; exact hlc)
  have h1 := Lex.lexFrom_append hU w b hw (.inl hne) (Lex.tokenize_run ha) ta rfl
    (fun ⟨l, e1, e2, _⟩ => .inl (hlast l e1 e2).1)
  have h2 := Lex.lexFrom_append hU w' b hw' (.inl hne') (Lex.tokenize_run ha) ta rfl
    (fun ⟨l, e1, e2, _⟩ => .inl (hlast l e1 e2).2)
  rw [Lex.tokenize_lexFrom, Lex.tokenize_lexFrom, List.append_assoc, List.append_assoc, h1, h2]
  exact Lex.erase_prepend _ _ _ _ rfl (Lex.lexFrom_erase _ _ _ _ _ _)

/-- The hypotheses of `C09_gap` are met by a non-trivial case. -/
example : ∃ ta, tokenize Unicode.sample "SELECT 1 -- c".toList = .ok (ta ++ [Token.eof]) ∧ ta.length = 3 :=
  ⟨[⟨1, 1, "SELECT".toList⟩, ⟨1, 8, "1".toList⟩, ⟨1, 10, "-- c".toList⟩], by decide +kernel, rfl⟩

/-- C10: a token starting with `>` is the single character `>` while an `ARRAY<` / `STRUCT<` bracket is
open, and otherwise the longest of `>>`, `>=`, `>`. -/
theorem C10_angle_brackets (U : Unicode) (code : Str) (pre post : List Token) (t : Token)
    (h : tokenize U code = .ok (pre ++ t :: post)) (ht : t.literal.head? = some '>') :
    ∃ before after, Occurs code t before after ∧
      (0 < openBrackets U none 0 (pre.map (·.literal)) → t.literal = ['>']) ∧
      (openBrackets U none 0 (pre.map (·.literal)) = 0 →
        t.literal = ['>', '>'] ∨ t.literal = ['>', '='] ∨
        (t.literal = ['>'] ∧ after.head? ≠ some '>' ∧ after.head? ≠ some '=')) := by
  have hne : t.literal ≠ [] := by intro hh; rw [hh] at ht; simp at ht
  obtain ⟨before, after, c, cs, consumed, rest, h1, h2, h3, h4, w, h5, h6⟩ :=
    Lex.token_origin h rfl (eof_literal hne)
  refine ⟨before, after, h1, ?_⟩
  have hc : c = '>' := by
    have := congrArg List.head? h2
    cases hlit : t.literal with
    | nil => exact absurd hlit hne
    | cons e es => rw [hlit] at this ht; simp at this ht; rw [← this, ht]
  subst hc
  unfold Lex.readToken at h3
  simp only at h3
  constructor
  · intro hd
    simp [hd, Lex.Read.chars] at h3
    exact h3.2.1.symm
  · intro hd
    simp only [hd, Nat.lt_irrefl, if_false] at h3
    cases cs with
    | nil =>
      simp [Lex.Read.chars] at h3
      right; right
      have hl := h3.2.1.symm
      rw [hl] at h2
      simp at h2
      rw [h2]
      exact ⟨hl, by simp⟩
    | cons e es =>
      simp only [List.head?_cons, Option.some.injEq] at h3
      split at h3
      · rename_i he; subst he
        simp [Lex.Read.chars] at h3
        exact .inl h3.2.1.symm
      · split at h3
        · rename_i he; subst he
          simp [Lex.Read.chars] at h3
          exact .inr (.inl h3.2.1.symm)
        · rename_i he1 he2
          simp [Lex.Read.chars] at h3
          right; right
          have hl := h3.2.1.symm
          rw [hl] at h2
          simp at h2
          rw [h2]
          exact ⟨hl, by simpa using he1, by simpa using he2⟩

example : tokenize Unicode.sample "ARRAY<STRUCT<a>> >> 1>=2".toList =
    .ok [⟨1, 1, "ARRAY".toList⟩, ⟨1, 6, ['<']⟩, ⟨1, 7, "STRUCT".toList⟩, ⟨1, 13, ['<']⟩, ⟨1, 14, ['a']⟩,
      ⟨1, 15, ['>']⟩, ⟨1, 16, ['>']⟩, ⟨1, 18, ['>', '>']⟩, ⟨1, 21, ['1']⟩, ⟨1, 22, ['>', '=']⟩,
      ⟨1, 24, ['2']⟩, Token.eof] := by decide +kernel

/-- C11: tokenizing `a`, white space, `b` gives the tokens of `a` followed by those of `b` moved to
their place, when no type bracket is open after `a`. -/
theorem C11_compositional (U : Unicode) (hU : U.Lawful) (a b w : Str) (ta tb : List Token)
    (ha : tokenize U a = .ok (ta ++ [Token.eof])) (hb : tokenize U b = .ok (tb ++ [Token.eof]))
    (hw : AllWs w) (hne : w ≠ [])
    (hopen : openBrackets U none 0 (ta.map (·.literal)) = 0)
    (hc : ∀ t, ta.getLast? = some t → IsLineComment t.literal → '\n' ∈ w) :
    tokenize U (a ++ w ++ b) = .ok (ta ++ tb.map (moveAfter (a ++ w)) ++ [Token.eof]) := by
  show Lex.tokenize U (a ++ w ++ b) = _
  have hlast : ∀ l, Lex.lastLit none ta = some l → IsLineComment l → '\n' ∈ w := by
    intro l hl hlc
    rw [lastLit_none, List.getLast?_map] at hl
    cases hg : ta.getLast? with
    | none => rw [hg] at hl; simp at hl
    | some t =>
      rw [hg] at hl
      simp at hl
      exact hc t hg (by rw [hl]; exact hlc)
  have h1 := Lex.lexFrom_append hU w b hw (.inl hne) (Lex.tokenize_run ha) ta rfl
    (fun ⟨l, e1, e2, _⟩ => .inl (hlast l e1 e2))
  have hb' : Lex.tokenize U b = .ok (tb ++ [Token.eof]) := hb
  rw [Lex.tokenize_lexFrom] at hb'
  have hb'' := Lex.lexFrom_last U _ _ (Lex.lastLit none ta) _ _ hb'
  have h2 := Lex.lexFrom_shift U (Lex.advanceAll (1, 1) (a ++ w)) b (1, 1) 0 _ (by simp) tb hb''
  have hpos : Lex.shiftPos (Lex.advanceAll (1, 1) (a ++ w)) (1, 1) = Lex.advanceAll (1, 1) (a ++ w) := by
    rw [Lex.advanceAll_spec]
    simp [Lex.shiftPos, lineAfter, columnAfter]
  rw [hpos] at h2
  rw [Lex.tokenize_lexFrom, List.append_assoc, h1, hopen, h2]
  simp only [Lex.prepend]
  rw [List.append_assoc]
  congr 3
  apply List.map_congr_left
  intro t _
  rw [Lex.advanceAll_spec]
  simp only [Lex.shiftPos, moveAfter, lineAfter]
  simp

example : tokenize Unicode.sample "SELECT 1 -- c\n;\n SELECT 2".toList =
    .ok [⟨1, 1, "SELECT".toList⟩, ⟨1, 8, "1".toList⟩, ⟨1, 10, "-- c".toList⟩, ⟨2, 1, ";".toList⟩,
      ⟨3, 2, "SELECT".toList⟩, ⟨3, 9, "2".toList⟩, Token.eof] := by decide +kernel

/-- The reserved keywords, src/constants.rs 1-98. -/
def reservedWords : List String := [
  "ALL", "AND", "ANY", "ARRAY", "AS", "ASC", "ASSERT_ROWS_MODIFIED", "AT", "BETWEEN", "BY", "CASE", "CAST",
  "COLLATE", "CONTAINS", "CREATE", "CROSS", "CUBE", "CURRENT", "DEFAULT", "DEFINE", "DESC", "DISTINCT",
  "ELSE", "END", "ENUM", "ESCAPE", "EXCEPT", "EXCLUDE", "EXISTS", "EXTRACT", "FALSE", "FETCH", "FOLLOWING",
  "FOR", "FROM", "FULL", "GROUP", "GROUPING", "GROUPS", "HASH", "HAVING", "IF", "IGNORE", "IN", "INNER",
  "INTERSECT", "INTERVAL", "INTO", "IS", "JOIN", "LATERAL", "LEFT", "LIKE", "LIMIT", "LOOKUP", "MERGE",
  "NATURAL", "NEW", "NO", "NOT", "NULL", "NULLS", "OF", "ON", "OR", "ORDER", "OUTER", "OVER", "PARTITION",
  "PRECEDING", "PROTO", "QUALIFY", "RANGE", "RECURSIVE", "RESPECT", "RIGHT", "ROLLUP", "ROWS", "SELECT",
  "SET", "SOME", "STRUCT", "TABLESAMPLE", "THEN", "TO", "TREAT", "TRUE", "UNBOUNDED", "UNION", "UNNEST",
  "USING", "WHEN", "WHERE", "WINDOW", "WITH", "WITHIN"]

theorem reservedWords_eq : reservedKeywords.map Kw.lit = reservedWords.map String.toList := by decide +kernel

/-- C27: which tokens count as identifiers. -/
theorem C27_identifier_classification (U : Unicode) (t : Token) :
    t.isIdentifier U = true ↔
      (∃ body, t.literal = '`' :: (body ++ ['`'])) ∨
      (PlainIdentifier t.literal ∧ ∀ w ∈ reservedWords, U.upper t.literal ≠ w.toList) := by
  have hres : t.isReservedKeyword U = false ↔ ∀ w ∈ reservedWords, U.upper t.literal ≠ w.toList := by
    have hmem : ∀ s : Str, (∃ k ∈ reservedKeywords, s = Kw.lit k) ↔ ∃ w ∈ reservedWords, s = w.toList := by
      intro s
      have h1 : s ∈ reservedKeywords.map Kw.lit ↔ s ∈ reservedWords.map String.toList := by
        rw [reservedWords_eq]
      simp only [List.mem_map] at h1
      constructor
      · rintro ⟨k, hk, rfl⟩
        obtain ⟨w, hw, e⟩ := h1.1 ⟨k, hk, rfl⟩
        exact ⟨w, hw, e.symm⟩
      · rintro ⟨w, hw, rfl⟩
        obtain ⟨k, hk, e⟩ := h1.2 ⟨w, hw, rfl⟩
        exact ⟨k, hk, e.symm⟩
    unfold Token.isReservedKeyword Token.inKws Token.upper
    rw [List.any_eq_false]
    constructor
    · intro h w hw e
      obtain ⟨k, hk, e'⟩ := (hmem _).2 ⟨w, hw, e⟩
      exact h k hk (by simpa using e')
    · intro h k hk e
      obtain ⟨w, hw, e'⟩ := (hmem (U.upper t.literal)).1 ⟨k, hk, by simpa using e⟩
      exact h w hw e'
  have hstart : ∀ c : Char, Token.identStart c = true ↔ (isAsciiLetter c = true ∨ c = '_') := by
    intro c
    simp [Token.identStart, isAsciiLetter]
  have hrest : ∀ c : Char, Token.identRest c = true ↔ (isAsciiLetter c = true ∨ c = '_' ∨ isDigitChar c = true) := by
    intro c
    simp [Token.identRest, hstart, isDigitChar, or_assoc]
  unfold Token.isIdentifier
  by_cases hq : t.quotedBy '`' = true
  · rw [if_pos hq]
    simp only [true_iff]
    exact .inl ((quotedBy_iff t '`' (by decide)).1 hq)
  · rw [if_neg hq]
    have hq' : ¬ ∃ body, t.literal = '`' :: (body ++ ['`']) := fun h =>
      hq ((quotedBy_iff t '`' (by decide)).2 h)
    by_cases hr : t.isReservedKeyword U = true
    · rw [if_pos hr]
      simp only [Bool.false_eq_true, false_iff]
      rintro (h | ⟨_, h⟩)
      · exact hq' h
      · rw [hres.2 h] at hr; simp at hr
    · rw [if_neg hr]
      have hr' := hres.1 (by simpa using hr)
      constructor
      · intro h
        right
        refine ⟨?_, hr'⟩
        cases hl : t.literal with
        | nil => rw [hl] at h; simp at h
        | cons c cs =>
          rw [hl] at h
          simp only [Bool.and_eq_true, List.all_eq_true] at h
          exact ⟨c, cs, rfl, (hstart c).1 h.1, fun d hd => (hrest d).1 (h.2 d hd)⟩
      · rintro (h | ⟨⟨c, cs, hl, h1, h2⟩, _⟩)
        · exact absurd h hq'
        · rw [hl]
          simp only [Bool.and_eq_true, List.all_eq_true]
          exact ⟨(hstart c).2 h1, fun d hd => (hrest d).2 (h2 d hd)⟩

example : (⟨1, 1, "_col1".toList⟩ : Token).isIdentifier Unicode.sample = true ∧
    (⟨1, 1, "select".toList⟩ : Token).isIdentifier Unicode.sample = false ∧
    (⟨1, 1, "`a b`".toList⟩ : Token).isIdentifier Unicode.sample = true := by decide +kernel

/-- C28: number tokens are `digits [. digits] [e [sign] digits]`, read as long as possible. -/
theorem C28_number_extent (U : Unicode) (code : Str) (toks : List Token)
    (h : tokenize U code = .ok toks) (t : Token) (ht : t ∈ toks)
    (hl : (∃ c l, t.literal = c :: l ∧ isDigitChar c = true) ∨
      (∃ c l, t.literal = '.' :: c :: l ∧ isDigitChar c = true)) :
    ∃ before after, Occurs code t before after ∧
      ∃ ds frac exp, t.literal = ds ++ frac ++ exp ∧ Digits ds ∧
        (frac = [] ∨ ∃ fs, frac = '.' :: fs ∧ Digits fs) ∧ (exp = [] ∨ ExponentText exp) ∧
        (∀ c r, after = c :: r → isDigitChar c = false) ∧
        (exp = [] → after.head? ≠ some 'e' ∧ after.head? ≠ some 'E') ∧
        (frac = [] → exp = [] → after.head? ≠ some '.') ∧
        (exp.length = 1 → after.head? ≠ some '+' ∧ after.head? ≠ some '-') := by
  have hne : t.literal ≠ [] := by rcases hl with ⟨c, l, hr, _⟩ | ⟨c, l, hr, _⟩ <;> simp [hr]
  obtain ⟨d, before, after, c, cs, consumed, rest, h1, h2, h3, h4, w, h5, h6⟩ :=
    Lex.mem_token_origin h ht (eof_literal hne)
  refine ⟨before, after, h1, ?_⟩
  have hread : Lex.readToken U d c cs = Lex.Read.exact (Lex.readNumber (c :: cs)) := by
    rcases hl with ⟨e, l, hr, he⟩ | ⟨e, l, hr, he⟩
    · rw [hr] at h2
      simp at h2
      obtain ⟨rfl, -⟩ := h2
      have hgen : ∀ x : Char, isDigitChar x = false → e ≠ x := by
        rintro x hx rfl; rw [he] at hx; simp at hx
      unfold Lex.readToken
      simp only
      split <;> first
        | exact absurd rfl (hgen _ (by decide))
        | simp [he]
    · rw [hr] at h2
      simp at h2
      obtain ⟨rfl, rfl⟩ := h2
      simp [Lex.readToken, he]
  rw [hread] at h3
  simp only [Lex.Read.exact, Lex.Read.tok.injEq] at h3
  obtain ⟨k1, k2, k3⟩ := h3
  obtain ⟨ds, frac, exp, j1, j2, j3, j4, j5, j6, j7, j8⟩ := Lex.readNumber_shape (c :: cs)
  have hafter : after = (Lex.readNumber (c :: cs)).2 := by
    have hs := Lex.readNumber_split (c :: cs)
    rw [k2] at hs
    exact (List.append_cancel_left (hs.trans h2.symm)).symm
  rw [hafter]
  exact ⟨ds, frac, exp, by rw [← k2]; exact j1, j2, j3, j4, j5, j6, j7, j8⟩

/-- C28: a token is classified numeric exactly when it matches the regular expression. -/
theorem C28_numeric_classification (t : Token) : t.isNumeric = true ↔ NumericSyntax t.literal :=
  isNumeric_iff t

example : tokenize Unicode.sample "1.5e-3 .5 1. 1e".toList =
    .ok [⟨1, 1, "1.5e-3".toList⟩, ⟨1, 8, ".5".toList⟩, ⟨1, 11, "1.".toList⟩, ⟨1, 14, "1e".toList⟩, Token.eof] := by
  decide +kernel
/-- Number tokens need not be numeric: `1.` and `1e` are not. -/
example : (⟨1, 1, "1.5e-3".toList⟩ : Token).isNumeric = true ∧ (⟨1, 1, "1.".toList⟩ : Token).isNumeric = false ∧
    (⟨1, 1, "1e".toList⟩ : Token).isNumeric = false := by decide +kernel

end Verif.Props
