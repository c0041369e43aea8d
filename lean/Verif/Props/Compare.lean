import Verif.Props.Parse
import Verif.Proofs.Strip
import Verif.Proofs.Blank
import Verif.Proofs.CaseFold
/-!
Theorems comparing two runs of the parser: letter case (C18), comments (C19), positions (C20).
`parseTokens U toks` models `Parser::new(toks).parse_code()`.
-/
namespace Verif.Props
open Verif.Spec Verif.Core

/-- C20: moving the tokens to other places, such that tokens which touch still touch and comments stay
on the line of the preceding token if they were there (`Relocated`), does not change the outcome: the trees have the same
shape and their tokens correspond one to one; errors have the same message at corresponding tokens.
(The literals may even change case.) -/
theorem C20_relocation (U : Unicode) (hU : U.Lawful) (toks toks' : List Token)
    (h : Relocated toks toks') : SameOutcome toks toks' (parseTokens U toks) (parseTokens U toks') :=
  h.sameOutcome hU

/-- C20 for source text: replacing the white space between the tokens by other white space (`Respaced`: no gap
appears or vanishes, a comment keeps its newline before it or the absence of one, a line comment is ended by a
newline) gives the same literals and the same outcome.  The sizes of the texts are below the limit of the
platform, as those of all strings are. -/
theorem C20_respacing (U : Unicode) (hU : U.Lawful) (gaps gaps' lits : List Str) (toks : List Token)
    (h : tokenize U (interleave gaps lits) = .ok toks) (hl : toks.map (·.literal) = lits ++ [[]])
    (hR : Respaced none gaps gaps' lits)
    (hs : (interleave gaps lits).length + 1 < usizeMax) (hs' : (interleave gaps' lits).length + 1 < usizeMax) :
    ∃ toks', tokenize U (interleave gaps' lits) = .ok toks' ∧ toks'.map (·.literal) = lits ++ [[]] ∧
      SameOutcome toks toks' (parse U (interleave gaps lits)) (parse U (interleave gaps' lits)) := by
  obtain ⟨r1, r2, r3, r4⟩ := Lex.Respaced.shape hR
  obtain ⟨body, hb, b1, hls, b3⟩ := Lex.tokenize_pre h hl r1 r3
  have he : Lex.erase (Lex.lexFrom U (1, 1) 0 none (interleave gaps lits)) = .ok (lits ++ [[]]) := by
    have h0 : Lex.lexFrom U (1, 1) 0 none (interleave gaps lits) = .ok toks := by
      rw [← Lex.tokenize_lexFrom]; exact h
    rw [h0, ← hl]
    rfl
  obtain ⟨toks', e1, e2⟩ := Lex.erase_tokens (Lex.lexFrom_respace hU hR hls (1, 1) (1, 1) 0 none he)
  have h' : tokenize U (interleave gaps' lits) = .ok toks' := by
    rw [← e1]; exact Lex.tokenize_lexFrom _ _
  refine ⟨toks', h', e2, ?_⟩
  have p1 : parse U (interleave gaps lits) = parseTokens U toks := by simp [parse, h]
  have p2 : parse U (interleave gaps' lits) = parseTokens U toks' := by simp [parse, h']
  rw [p1, p2]
  exact C20_relocation U hU toks toks' (Lex.respaced_relocated hR h hl h' e2 hs hs')

/-- The literals of a query with a comment, two spacings of it, and a proof that they are related. -/
def respacedLits : List Str :=
  ["SELECT".toList, "a".toList, ".".toList, "b".toList, "-- c".toList, "FROM".toList, "t".toList]
def respacedGaps : List Str :=
  [[], [' '], [], [], [' '], "  \n".toList, ['\n'], []]
def respacedGaps' : List Str :=
  [" \n".toList, "\n\t".toList, [], [], "    ".toList, " \n\n  ".toList, "  ".toList, ['\n']]

example : Respaced none respacedGaps respacedGaps' respacedLits := by
  refine .cons ?_ ?_ ?_ (.cons ?_ ?_ ?_ (.cons ?_ ?_ ?_ (.cons ?_ ?_ ?_ (.cons ?_ ?_ ?_ (.cons ?_ ?_ ?_
    (.cons ?_ ?_ ?_ (.last ?_ ?_)))))))
  all_goals first
    | (unfold AllWs; decide)
    | (intro l' h; cases h; done)
    | (intro l' h; cases h; refine ⟨by decide, ?_, ?_⟩ <;> simp [IsComment, IsLineComment] <;> decide)

example : interleave respacedGaps respacedLits = "SELECT a.b -- c  \nFROM\nt".toList ∧
    interleave respacedGaps' respacedLits = " \nSELECT\n\ta.b    -- c \n\n  FROM  t\n".toList := by decide

/-- The first spacing satisfies the hypotheses on its tokens. -/
example : (match tokenize Unicode.sample (interleave respacedGaps respacedLits) with
    | .ok toks => toks.map (·.literal) == respacedLits ++ [[]]
    | _ => false) = true ∧ (interleave respacedGaps respacedLits).length + 1 < usizeMax ∧
    (interleave respacedGaps' respacedLits).length + 1 < usizeMax := by decide +kernel

/-- An example of a relocation: everything moves down by `n` lines. -/
theorem relocated_down (toks : List Token) (n : Nat) :
    Relocated toks (toks.map fun t => { t with line := t.line + n }) := by
  refine ⟨?_, ?_, ?_⟩
  · induction toks with
    | nil => exact .nil
    | cons t ts ih => exact .cons rfl ih
  all_goals
    intro i j a b a' b' _ _ _ h1 h2 h3 h4
    rw [List.getElem?_map, h1] at h3
    rw [List.getElem?_map, h2] at h4
    simp only [Option.map_some, Option.some.injEq] at h3 h4
    subst h3 h4
    simp [SameLine, Touches]

/-- C18: changing the case of ASCII letters in the literals of the tokens changes neither success nor
the shape of the trees; tokens correspond one to one. -/
theorem C18_case_insensitive (U : Unicode) (hU : U.Lawful) (toks toks' : List Token)
    (h : List.Forall₂ (fun t t' => t.line = t'.line ∧ t.column = t'.column ∧ SameUpToCase t t') toks toks') :
    SameOutcome toks toks' (parseTokens U toks) (parseTokens U toks') := by
  refine C20_relocation U hU toks toks' ⟨h.imp fun _ _ h => h.2.2, ?_, ?_⟩
  all_goals
  intro i j a b a' b' _ _ _ h1 h2 h3 h4
  have key : ∀ (i : Nat) (a a' : Token), toks[i]? = some a → toks'[i]? = some a' →
      a.line = a'.line ∧ a.column = a'.column ∧ a.literal.length = a'.literal.length := by
    intro i a a' h1 h2
    obtain ⟨l1, e1⟩ := List.getElem?_eq_some_iff.1 h1
    obtain ⟨l2, e2⟩ := List.getElem?_eq_some_iff.1 h2
    have := (List.forall₂_iff_get.1 h).2 i l1 l2
    simp only [List.get_eq_getElem, e1, e2] at this
    have hl := congrArg List.length this.2.2
    simp only [List.length_map] at hl
    exact ⟨this.1, this.2.1, hl⟩
  obtain ⟨k1, k2, k3⟩ := key i a a' h1 h3
  obtain ⟨k4, k5, k6⟩ := key j b b' h2 h4
  simp only [SameLine, Touches, k1, k2, k3, k4, k5]

/-- C18 for source text: two texts that differ only in the case of ASCII letters have corresponding tokens at the
same places and corresponding outcomes, or `tokenize` and `parse` fail on both with the same error, or panic on
both. -/
theorem C18_case_insensitive_code (U : Unicode) (hU : U.Lawful) (code code' : Str)
    (h : code.map Char.toUpper = code'.map Char.toUpper) :
    (∃ toks toks', tokenize U code = .ok toks ∧ tokenize U code' = .ok toks' ∧
      List.Forall₂ (fun t t' => t.line = t'.line ∧ t.column = t'.column ∧ SameUpToCase t t') toks toks' ∧
      SameOutcome toks toks' (parse U code) (parse U code')) ∨
    (∃ e, tokenize U code = .err e ∧ tokenize U code' = .err e ∧ parse U code = .err e ∧ parse U code' = .err e) ∨
    (∃ p, tokenize U code = .panic p ∧ tokenize U code' = .panic p ∧ parse U code = .panic p ∧
      parse U code' = .panic p) := by
  have h1 : Lex.upOut (tokenize U code) = Lex.upOut (tokenize U code') := by
    have a := Lex.tokenize_up hU code
    have b := Lex.tokenize_up hU code'
    have hc : Lex.up code = Lex.up code' := h
    rw [hc, b] at a
    exact a.symm
  cases ht : tokenize U code with
  | ok toks =>
    cases ht' : tokenize U code' with
    | ok toks' =>
      left
      rw [ht, ht'] at h1
      simp only [Lex.upOut, Out.ok.injEq] at h1
      have hf : List.Forall₂ (fun t t' => t.line = t'.line ∧ t.column = t'.column ∧ SameUpToCase t t') toks toks' := by
        clear ht ht'
        induction toks generalizing toks' with
        | nil =>
          cases toks' with
          | nil => exact .nil
          | cons t ts => cases h1
        | cons t ts ih =>
          cases toks' with
          | nil => cases h1
          | cons t' ts' =>
            simp only [List.map_cons, List.cons.injEq, Lex.upToken, Token.mk.injEq] at h1
            exact .cons ⟨h1.1.1, h1.1.2.1, h1.1.2.2⟩ (ih ts' h1.2)
      refine ⟨toks, toks', rfl, rfl, hf, ?_⟩
      have p1 : parse U code = parseTokens U toks := by simp [parse, ht]
      have p2 : parse U code' = parseTokens U toks' := by simp [parse, ht']
      rw [p1, p2]
      exact C18_case_insensitive U hU toks toks' hf
    | err e => rw [ht, ht'] at h1; cases h1
    | panic e => rw [ht, ht'] at h1; cases h1
    | timeout => rw [ht, ht'] at h1; cases h1
  | err e =>
    right; left
    cases ht' : tokenize U code' with
    | err e' =>
      rw [ht, ht'] at h1
      simp only [Lex.upOut, Out.err.injEq] at h1
      subst h1
      exact ⟨e, rfl, rfl, by simp [parse, ht], by simp [parse, ht']⟩
    | ok e => rw [ht, ht'] at h1; cases h1
    | panic e => rw [ht, ht'] at h1; cases h1
    | timeout => rw [ht, ht'] at h1; cases h1
  | panic e =>
    right; right
    cases ht' : tokenize U code' with
    | panic e' =>
      rw [ht, ht'] at h1
      simp only [Lex.upOut, Out.panic.injEq] at h1
      subst h1
      exact ⟨e, rfl, rfl, by simp [parse, ht], by simp [parse, ht']⟩
    | ok e => rw [ht, ht'] at h1; cases h1
    | err e => rw [ht, ht'] at h1; cases h1
    | timeout => rw [ht, ht'] at h1; cases h1
  | timeout => exact absurd ht (C04_tokenize_terminates U code)

example : "select a.B, r'x' From t -- c".toList.map Char.toUpper =
    "SELECT A.b, R'X' from T -- C".toList.map Char.toUpper := by decide

/-- The hypotheses are met by the tokens of two spellings of a query. -/
example : (match tokenize Unicode.sample "select a.B, r'x' From t -- c".toList,
      tokenize Unicode.sample "SELECT A.b, R'X' from T -- C".toList with
    | .ok ts, .ok ts' => ts.map (fun t => (t.line, t.column, t.literal.map Char.toUpper)) ==
        ts'.map (fun t => (t.line, t.column, t.literal.map Char.toUpper)) && ts.length == 11
    | _, _ => false) = true := by decide +kernel

/-- Apply a function to the value of a successful outcome. -/
def onSuccess {α β : Type} (f : α → β) : Out α → Out β
  | .ok a => .ok (f a)
  | .err e => .err e
  | .panic p => .panic p
  | .timeout => .timeout

/-- C19: deleting the comment tokens deletes the comments from the trees and changes nothing else; errors
and panics are the same.  The last token must not be a comment (it is the EOF token). -/
theorem C19_comments_ignored (U : Unicode) (toks : List Token) (e : Token)
    (hl : toks.getLast? = some e) (he : e.isComment = false) :
    parseTokens U (toks.filter fun t => !t.isComment) =
      onSuccess (List.map stripComments) (parseTokens U toks) := by
  have h := strip_parse hl he U
  have h1 := parseTokensWith_ne_timeout U toks (toks.length + 1) (4 * toks.length) (by omega) (by omega)
  have h2 := parseTokensWith_ne_timeout U (toks.filter nc) ((toks.filter nc).length + 1)
    (4 * (toks.filter nc).length) (by omega) (by omega)
  change parseTokens U toks ≠ .timeout at h1
  change parseTokens U (toks.filter nc) ≠ .timeout at h2
  change parseTokens U (toks.filter nc) = _
  generalize parseTokens U toks = x at *
  generalize parseTokens U (toks.filter nc) = y at *
  cases x <;> cases y <;> first | exact False.elim h | exact absurd rfl h1 | exact absurd rfl h2 | skip
  · exact congrArg Out.ok h
  · exact congrArg Out.err (Eq.symm h)
  · exact congrArg Out.panic (Eq.symm h)

/-- C19 for `parse`: the token list of any input qualifies. -/
theorem C19_comments_ignored_code (U : Unicode) (code : Str) (toks : List Token)
    (h : tokenize U code = .ok toks) :
    parseTokens U (toks.filter fun t => !t.isComment) =
      onSuccess (List.map stripComments) (parse U code) := by
  obtain ⟨body, rfl⟩ := tokenize_body h
  rw [C19_comments_ignored U (body ++ [Token.eof]) Token.eof (by simp) (by decide)]
  simp [parse, h]

/-- Comments do occur in trees, as leading and as trailing comments. -/
example : (match parse Unicode.sample "/* a */ SELECT -- b\n 1 /* c */".toList with
    | .ok ns => ((ns.flatMap nodes).map fun n => n.kids.keys.count .k_leading_comments) == [1, 0, 0, 0, 0, 0]
        && ((ns.flatMap nodes).map fun n => n.kids.keys.count .k_trailing_comments) == [1, 0, 0, 1, 0, 0]
    | _ => false) = true := by decide +kernel

/-- C19 for source text: overwriting the comments of a text with blanks (newlines stay) gives the same tokens at the
same places but for the comments, and the same trees but for the comments, the same error or the same panic.  No
`<` may come directly after a comment: see `C19_comment_before_bracket`. -/
theorem C19_comments_blanked (U : Unicode) (hU : U.Lawful) (gaps lits : List Str) (toks : List Token)
    (h : tokenize U (interleave gaps lits) = .ok toks) (hl : toks.map (·.literal) = lits ++ [[]])
    (hlen : gaps.length = lits.length + 1) (hw : ∀ g ∈ gaps, AllWs g) (hb : NoBracketAfterComment lits) :
    tokenize U (interleave gaps (lits.map blankComment)) = .ok (toks.filter fun t => !t.isComment) ∧
      parse U (interleave gaps (lits.map blankComment)) =
        onSuccess (List.map stripComments) (parse U (interleave gaps lits)) := by
  obtain ⟨body, hbody, b1, hls, _⟩ := Lex.tokenize_pre h hl hlen hw
  have h0 : Lex.lexFrom U (1, 1) 0 none (interleave gaps lits) = .ok toks := by
    rw [← Lex.tokenize_lexFrom]; exact h
  have h1 := Lex.lexFrom_blank hU lits gaps (1, 1) 0 none none toks hlen hw hls hb (.inl rfl) h0 hl
  have h2 : tokenize U (interleave gaps (lits.map blankComment)) = .ok (toks.filter fun t => !t.isComment) := by
    rw [← h1]; exact Lex.tokenize_lexFrom _ _
  refine ⟨h2, ?_⟩
  rw [← C19_comments_ignored_code U _ toks h]
  simp [parse, h2]

/-- The hypotheses are met by a query with comments of all kinds. -/
example : let gaps := [[], [' '], [], [' '], "\n".toList, [' '], [' '], []]
    let lits := ["# c".toList, "SELECT".toList, "/* a\n */".toList, "1".toList, "-- b".toList, "FROM".toList,
      "t".toList]
    let gaps := gaps.set 1 "\n".toList |>.set 5 "\n ".toList
    (match tokenize Unicode.sample (interleave gaps lits) with
      | .ok toks => toks.map (·.literal) == lits ++ [[]]
      | _ => false) = true ∧
    interleave gaps lits = "# c\nSELECT/* a\n */ 1\n-- b\n FROM t".toList ∧
    interleave gaps (lits.map blankComment) = "   \nSELECT    \n    1\n    \n FROM t".toList := by decide +kernel

example : NoBracketAfterComment ["# c".toList, "SELECT".toList, "/* a\n */".toList, "1".toList, "-- b".toList,
    "FROM".toList, "t".toList] := by
  intro x l y h
  have : ['<'] ∈ ["# c".toList, "SELECT".toList, "/* a\n */".toList, "1".toList, "-- b".toList,
    "FROM".toList, "t".toList] := by rw [h]; simp
  exact absurd this (by decide)

/-- A comment between `ARRAY` or `STRUCT` and `<` is not ignored: the text is rejected with the comments and
accepted with blanks in their place. -/
theorem C19_comment_before_bracket :
    (match parse Unicode.sample "SELECT ARRAY/*c*/<STRUCT/*c*/<x INT64>>[]".toList with
      | .err e => e.msg == .followedByEof
      | _ => false) = true ∧
    (match parse Unicode.sample "SELECT ARRAY     <STRUCT     <x INT64>>[]".toList with
      | .ok ns => ns.length == 2
      | _ => false) = true := by decide +kernel

end Verif.Props
