import Verif.Proofs.Steps
import Verif.Proofs.Moved
import Verif.Props.Accept
import Verif.Props.Tokenize
/-!
# C41, C42: complete statements are parsed independently of what follows

Sequences of complete statements are defined in Verif.Spec.Steps.
-/
set_option maxRecDepth 100000
namespace Verif.Props
open Verif.Spec

/-- C41: if the tokens of a text begin with `n` complete statements, each with its semicolon, then these statements are
accepted on their own, one tree each, and the outcome for the text is given by the outcome for the rest of the tokens:
the trees of the statements are followed by those of the rest, up to the comments attached to them, and an error or
a panic is that of the rest. -/
theorem C41_statements_independent (U : Unicode) (hU : U.Lawful) (code : Str) (xs ys : List Token) (n : Nat)
    (ht : tokenize U code = .ok (xs ++ ys)) (hy : ys ≠ []) (ha : WordsApart xs) (hs : IsSteps n (significant xs)) :
    ∃ stmts eof, stmts.length = n ∧ parseTokens U (xs ++ [Token.eof]) = .ok (stmts ++ [eof]) ∧
      match parseTokens U ys with
      | .ok ms => ∃ ns, parse U code = .ok ns ∧ ns.map stripComments = (stmts ++ ms).map stripComments
      | .err e => parse U code = .err e
      | .panic p => parse U code = .panic p
      | .timeout => False := by
  obtain ⟨body, hb, hne⟩ := C03_eof_token_last U code _ ht
  change xs ++ ys = body ++ [Token.eof] at hb
  obtain ⟨z, hz⟩ : ∃ z, ys = z ++ [Token.eof] := by
    have h1 : (xs ++ ys).getLast? = some Token.eof := by rw [hb]; simp
    rw [List.getLast?_append_of_ne_nil _ hy] at h1
    exact List.getLast?_eq_some_iff.1 h1
  have hxb : body = xs ++ z := by
    rw [hz, ← List.append_assoc] at hb
    exact (List.append_inj_left' hb rfl).symm
  have hp : parse U code = parseTokens U (xs ++ ys) := by unfold parse; rw [ht]; rfl
  rw [hp]
  exact Cut.steps_sound GI.tables_ok hU GI.plainOk GI.check_all hs (fun t h => hne t (by rw [hxb]; simp [h])) ha hz

/-- C42: a text of `n` complete statements, each with its semicolon, can be followed by any other text on a new line:
the trees are those of the two texts up to the attached comments, the tokens of the second text being moved to their
places; an error in the second text is reported at the place it is moved to. -/
theorem C42_concatenation (U : Unicode) (hU : U.Lawful) (a w b : Str) (ta tb : List Token) (n : Nat)
    (ha : tokenize U a = .ok (ta ++ [Token.eof])) (hb : tokenize U b = .ok (tb ++ [Token.eof]))
    (hw : AllWs w) (hn : '\n' ∈ w) (hopen : openBrackets U none 0 (ta.map (·.literal)) = 0)
    (hap : WordsApart ta) (hs : IsSteps n (significant ta)) (hlen : (a ++ w ++ b).length + 1 < usizeMax) :
    ∃ stmts eof rest, parse U a = .ok (stmts ++ [eof]) ∧ stmts.length = n ∧
      SameOutcome (tb ++ [Token.eof]) (tb.map (moveAfter (a ++ w)) ++ [Token.eof]) (parse U b) rest ∧
      match rest with
      | .ok ms => ∃ ns, parse U (a ++ w ++ b) = .ok ns ∧ ns.map stripComments = (stmts ++ ms).map stripComments
      | .err e => parse U (a ++ w ++ b) = .err e
      | .panic p => parse U (a ++ w ++ b) = .panic p
      | .timeout => False := by
  have hc := C11_compositional U hU a b w ta tb ha hb hw (by rintro rfl; simp at hn) hopen (fun _ _ _ => hn)
  rw [List.append_assoc ta] at hc
  obtain ⟨stmts, e, h1, h2, h3⟩ := C41_statements_independent U hU _ _ _ n hc (by simp) hap hs
  refine ⟨stmts, e, _, ?_, h1, ?_, h3⟩
  · unfold parse; rw [ha]; exact h2
  · have : parse U b = parseTokens U (tb ++ [Token.eof]) := by unfold parse; rw [hb]; rfl
    rw [this]
    obtain ⟨body, hbody, hne⟩ := C03_eof_token_last U b _ hb
    refine (moved_relocated hb (fun t ht => hne t ?_) ?_).sameOutcome hU
    · rw [← List.append_inj_left' hbody rfl]; exact ht
    simp only [List.length_append] at hlen ⊢
    omega

/-! ## Examples -/

/-- Two complete statements with comments. -/
def twoSteps : String := "DELETE t WHERE x = 1 /* c */;\nSELECT k, SUM(n) FROM t GROUP BY k; -- d"

theorem twoSteps_steps : IsSteps 2 (significant (toksOf twoSteps)) := by
  have h : significant (toksOf twoSteps) =
      ["DELETE".toList, "t".toList, "WHERE".toList, "x".toList, "=".toList, "1".toList] ++ ";".toList ::
      (["SELECT".toList, "k".toList, ",".toList, "SUM".toList, "(".toList, "n".toList, ")".toList, "FROM".toList, "t".toList, "GROUP".toList, "BY".toList, "k".toList] ++ ";".toList :: []) := by
    decide +kernel
  rw [h]
  refine .cons (GI.derivB_sound (n := 1000) (cs := [0, 3, 0, 0, 0, 0, 0, 0, 1, 0, 1, 0, 1, 1, 0, 0, 2, 0]) (by decide +kernel))
    (.cons (GI.derivB_sound (n := 1000) (cs := [0, 1, 0, 1, 2, 0, 1, 0, 0, 0, 0, 1, 0, 1, 0, 1, 0, 0, 0, 1, 1, 0, 1, 0, 0,
      2, 0, 1, 0, 0, 1, 0, 1, 0, 0, 1, 0, 0, 0, 0, 0, 0, 0, 0, 0, 0, 0, 0, 0, 0, 0, 0, 0, 0, 0, 1, 0, 0, 1, 0, 1, 0, 1, 0,
      0, 0, 0, 0, 0, 0, 0]) (by decide +kernel)) .nil)

theorem twoSteps_tokens : tokenize Unicode.sample twoSteps.toList = .ok ((toksOf twoSteps).dropLast ++ [Token.eof]) := by
  have h : tokenize Unicode.sample twoSteps.toList = .ok (toksOf twoSteps) := toksOf_eq (by decide +kernel)
  rw [h]
  decide +kernel

/-- A sufficient test for `WordsApart`. -/
def apartAll : List Token → Bool
  | [] => true
  | a :: l => l.all (fun b => !GI.isWordLit a.literal || !Interp.adjacentToks a b || GI.mayTouchB b.literal) && apartAll l

theorem apartAll_sound : ∀ {l : List Token}, apartAll l = true → ∀ (i j : Nat) (a b : Token), i < j → l[i]? = some a →
    l[j]? = some b → PlainIdentifier a.literal → Touches a b → MayTouch b.literal
  | [], _, i, _, _, _, _, ha, _ => by simp at ha
  | x :: l, h, i, 0, a, b, hij, _, _ => by omega
  | x :: l, h, 0, j + 1, a, b, _, ha, hb => by
    intro hw ht
    simp only [apartAll, Bool.and_eq_true, List.all_eq_true] at h
    simp only [List.getElem?_cons_zero, Option.some.injEq, List.getElem?_cons_succ] at ha hb
    subst ha
    have h1 := h.1 b (List.mem_of_getElem? hb)
    have h2 : Interp.adjacentToks x b = true := by simpa [Interp.adjacentToks, Touches] using ht
    rw [(GI.isWordLit_iff _).2 hw, h2] at h1
    exact GI.mayTouchB_sound (by simpa using h1)
  | x :: l, h, i + 1, j + 1, a, b, hij, ha, hb => by
    simp only [apartAll, Bool.and_eq_true] at h
    exact apartAll_sound h.2 i j a b (by omega) (by simpa using ha) (by simpa using hb)

theorem twoSteps_apart : WordsApart (toksOf twoSteps).dropLast := fun i j a b ho ha hb hw ht =>
  .inr (apartAll_sound (l := (toksOf twoSteps).dropLast) (by decide +kernel) i j a b ho.1 ha hb hw ht)

theorem twoSteps_steps' : IsSteps 2 (significant (toksOf twoSteps).dropLast) := by
  have h : significant (toksOf twoSteps).dropLast = significant (toksOf twoSteps) := by decide +kernel
  rw [h]
  exact twoSteps_steps

/-- The hypotheses of C41 and C42 are met for any text `b` with tokens after the two statements; its error is the error
of the whole. -/
example (b : Str) (tb : List Token) (hb : tokenize Unicode.sample b = .ok (tb ++ [Token.eof]))
    (hlen : b.length < 1000000) (hp : ¬ ∃ ns, parse Unicode.sample b = .ok ns) :
    ¬ ∃ ns, parse Unicode.sample (twoSteps.toList ++ ['\n'] ++ b) = .ok ns := by
  obtain ⟨stmts, e, rest, _, _, h3, h4⟩ := C42_concatenation Unicode.sample Unicode.sample_lawful twoSteps.toList ['\n'] b
    (toksOf twoSteps).dropLast tb 2 twoSteps_tokens hb (by simp [AllWs, isWhitespaceChar]) (by simp) (by decide +kernel)
    twoSteps_apart twoSteps_steps' (by
      rw [List.length_append, List.length_append, show twoSteps.toList.length = 70 by decide, show usizeMax = 4294967295 from rfl]
      simp only [List.length_singleton]
      omega)
  generalize parse Unicode.sample b = o at h3 hp
  cases h3 with
  | ok h => exact absurd ⟨_, rfl⟩ hp
  | err h hm => rw [h4]; rintro ⟨_, h⟩; cases h
  | panic p => rw [h4]; rintro ⟨_, h⟩; cases h

/-- The number of trees, if `parse` succeeds. -/
def treesOf (s : String) : Option Nat :=
  match parse Unicode.sample s.toList with
  | .ok ns => some ns.length
  | _ => none

/-- C41 needs statements of the grammar: `SELECT (1;` is accepted as a statement although its parenthesis is closed by
the semicolon, and then it goes on after it.  And it needs the exception of `PlainStep`: an `INSERT` statement that
ends in a query with `|>` swallows a second semicolon. -/
theorem C41_limits :
    treesOf "SELECT (1;" = some 2 ∧ treesOf "+ 2" = none ∧ treesOf "SELECT (1; + 2" = some 2 ∧
    treesOf "INSERT INTO t (a) SELECT 1 |> WHERE x;" = some 2 ∧ treesOf ";" = none ∧
    treesOf "INSERT INTO t (a) SELECT 1 |> WHERE x;;" = some 2 := by
  refine ⟨?_, ?_, ?_, ?_, ?_, ?_⟩ <;> decide +kernel

end Verif.Props
