import Verif.Spec.Lexer
/-! A text with given tokens at given places.  Only the type of tokens is used. -/
namespace Verif.Spec

/-- The text `before`, then newlines and blanks up to the line and the column of the token, then its literal. -/
def place (before : Str) (t : Token) : Str :=
  if t.line = lineAfter before then
    before ++ List.replicate (t.column - columnAfter before) ' ' ++ t.literal
  else before ++ List.replicate (t.line - lineAfter before) '\n' ++ List.replicate (t.column - 1) ' ' ++ t.literal

/-- The text in which every token of the list stands in the place it says, and nothing else but blanks and
newlines. -/
def render (toks : List Token) : Str := toks.foldl place []

end Verif.Spec
