import Verif.Proofs.WorkTop
import Verif.Proofs.SlowTop
/-!
How much work a text can cause (C47): an upper bound for every text, and texts for which it is exponential.  Work is the number of calls of the functions of the parser,
`next_token` included, counted by `parseWork` (Model/Work.lean).
-/
namespace Verif.Props
open Verif.Spec

/-- C47, an upper bound: the work is at most linear in the number of tokens, times two for each opening parenthesis
before something that could be a query. -/
theorem C47_work_bound (U : Unicode) (code : Str) (toks : List Token) (_h : tokenize U code = .ok toks) :
    parseWork U toks ≤ 31 * (toks.length + 1) * 2 ^ openings U toks := parseWork_bound U toks

/-- C47, the linear case: no opening parenthesis stands before `SELECT`, `WITH`, `FROM` or another one. -/
theorem C47_linear (U : Unicode) (code : Str) (toks : List Token) (h : tokenize U code = .ok toks)
    (h0 : ∀ l t r, toks = l ++ t :: r → opensQuery U (t :: r) = false) :
    parseWork U toks ≤ 31 * (toks.length + 1) := by
  have key : ∀ ts : List Token, (∀ l t r, ts = l ++ t :: r → opensQuery U (t :: r) = false) → openings U ts = 0 := by
    intro ts
    induction ts with
    | nil => intro _; rfl
    | cons t ts ih =>
      intro h
      simp only [openings]
      rw [h [] t ts rfl, ih fun l u r hl => h (t :: l) u r (by rw [hl]; rfl)]
      rfl
  have := C47_work_bound U code toks h
  rwa [key toks h0, Nat.pow_zero, Nat.mul_one] at this

/-- A text with one such parenthesis, and one with none; the bounds are met with room to spare. -/
example : (match tokenize Unicode.sample "SELECT 1 FROM ((SELECT 1) JOIN u);".toList with
    | .ok toks => (toks.length, openings Unicode.sample toks, parseWork Unicode.sample toks)
    | _ => (0, 0, 0)) = (13, 2, 39) := by decide +kernel

example : (match tokenize Unicode.sample "SELECT f(a, b + c) FROM t;".toList with
    | .ok toks => (toks.length, openings Unicode.sample toks, parseWork Unicode.sample toks)
    | _ => (0, 0, 0)) = (13, 0, 26) := by decide +kernel

/-- C47, a lower bound: there are valid statements of any size for which the work doubles with every nine tokens. -/
theorem C47_exponential (U : Unicode) (hU : U.Lawful) (n : Nat) :
    ∃ toks trees, tokenize U (nestedText n) = .ok toks ∧ toks.length = 9 * n + 9 ∧
      parse U (nestedText n) = .ok trees ∧ 2 ^ n ≤ parseWork U toks := by
  obtain ⟨body, h1, h2⟩ := Slow.tokenize_nested hU n
  obtain ⟨⟨trees, h3⟩, h4⟩ := Slow.nested_work hU n h2
  refine ⟨_, trees, h1, ?_, by unfold parse; rw [h1]; exact h3, h4⟩
  have := congrArg List.length h2
  simp only [List.length_map, Slow.stmtLits, List.length_append, List.length_cons, List.length_nil,
    Slow.query_length] at this
  simp only [List.length_append, List.length_cons, List.length_nil, this]
  omega

example : nestedText 1 = "SELECT 1 FROM ( SELECT 1 FROM ( ( SELECT 1 ) JOIN U ) ) ; ".toList := by decide

example : Unicode.Lawful Unicode.sample := Unicode.sample_lawful

end Verif.Props
