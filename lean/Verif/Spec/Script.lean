import Verif.Spec.Grammar
import Verif.Spec.Parse
/-! Scripts over the grammar of Verif.Spec.Grammar, as lists of tokens. -/
namespace Verif.Spec

/-- The literals of the tokens of a text, without comments and without the EOF token (the only token with an
empty literal). -/
def significant (toks : List Token) : List Str :=
  (toks.filter fun t => !t.isComment && !t.literal.isEmpty).map Token.literal

/-- `n` statements, separated by semicolons; the last one may be followed by a semicolon.  (A `Step` is a
statement, or one of those that the parser accepts only before a semicolon.) -/
inductive IsScript : Nat → List Str → Prop
  | nil : IsScript 0 []
  | last {s : List Str} (h : Derives [.nt .Statement] s) : IsScript 1 s
  | cons {n : Nat} {s rest : List Str} (h : Derives [.nt .Step] s) (hr : IsScript n rest) :
      IsScript (n + 1) (s ++ ";".toList :: rest)

/-- What may follow a word without space: a string, or a symbol known to the parser other than `|>`. -/
def MayTouch (l : Str) : Prop :=
  StringText l ∨ ∃ k : Kw, l = k.lit ∧ k ≠ .sym_pipe ∧ ¬ PlainIdentifier l

/-- Words are followed by a space, a comment, the end of the text, or a token that may touch them. -/
def WordsApart (toks : List Token) : Prop :=
  ∀ i j a b, OnlyCommentsBetween toks i j → toks[i]? = some a → toks[j]? = some b →
    PlainIdentifier a.literal → Touches a b → b.isComment = true ∨ MayTouch b.literal

end Verif.Spec
