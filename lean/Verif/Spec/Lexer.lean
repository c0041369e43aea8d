import Verif.Model.Token
/-!
Specification vocabulary for the tokenizer properties.  Nothing here mentions the lexer itself.
-/
namespace Verif.Spec

/-- Every character of `s` is white space. -/
def AllWs (s : Str) : Prop := ∀ c ∈ s, isWhitespaceChar c = true

/-- `gap0 literal1 gap1 ... literalN gapN`. -/
def interleave : (gaps literals : List Str) → Str
  | g :: gs, l :: ls => g ++ l ++ interleave gs ls
  | g :: _, [] => g
  | [], _ => []

/-- Line number (from 1) of the character following the text `p`. -/
def lineAfter (p : Str) : Nat := 1 + p.count '\n'

/-- Column (from 1) of the character following the text `p`: one more than the number of characters
since the last newline. -/
def columnAfter (p : Str) : Nat := 1 + (p.reverse.takeWhile (· ≠ '\n')).length

/-- Does `p` end in an odd number of backslashes? -/
def oddBackslashes (p : Str) : Bool := (p.reverse.takeWhile (· == '\\')).length % 2 == 1

/-- Effect of one literal on the number `n` of open type brackets; `prev` is the previous literal. -/
def bracketStep (U : Unicode) (prev : Option Str) (n : Nat) (l : Str) : Nat :=
  if l = ['<'] then
    match prev with
    | some p => if U.upper p = "ARRAY".toList ∨ U.upper p = "STRUCT".toList then n + 1 else n
    | none => n
  else if l = ['>'] then n - 1
  else n

/-- The number of `<` directly after `ARRAY`/`STRUCT` not yet matched by a later `>` token.
`prev` is the previous literal, `n` the number of open brackets so far. -/
def openBrackets (U : Unicode) : (prev : Option Str) → (n : Nat) → List Str → Nat
  | _, n, [] => n
  | prev, n, l :: ls => openBrackets U (some l) (bracketStep U prev n l) ls

/-- A line comment literal: starts with `#` or `--`. -/
def IsLineComment (l : Str) : Prop := (∃ r, l = '#' :: r) ∨ (∃ r, l = '-' :: '-' :: r)

end Verif.Spec

namespace Verif.Spec

/-- Token `t` occurs in `code` between `before` and `after`, and carries that position. -/
def Occurs (code : Str) (t : Token) (before after : Str) : Prop :=
  code = before ++ t.literal ++ after ∧ t.line = lineAfter before ∧ t.column = columnAfter before

/-- `l` is `q body q` and the closing quote is the first `q` after the opening one that is not
preceded by an odd number of backslashes. -/
def QuotedOnce (q : Char) (l body : Str) : Prop :=
  l = q :: (body ++ [q]) ∧ oddBackslashes body = false ∧
    ∀ x y, body = x ++ q :: y → oddBackslashes x = true

/-- `l` is `qqq body qqq` and the closing `qqq` is the first `qqq` after the opening one that is not
preceded by an odd number of backslashes. -/
def QuotedThrice (q : Char) (l body : Str) : Prop :=
  l = q :: q :: q :: (body ++ [q, q, q]) ∧ oddBackslashes body = false ∧
    ∀ x y, x ++ q :: q :: q :: y = body ++ [q, q, q] → x.length < body.length → oddBackslashes x = true

/-- A sequence of decimal digits (possibly empty). -/
def Digits (s : Str) : Prop := ∀ c ∈ s, isDigitChar c = true

/-- `[eE][+-]?[0-9]*` -/
def ExponentText (s : Str) : Prop :=
  ∃ e sign ds, s = e :: (sign ++ ds) ∧ (e = 'e' ∨ e = 'E') ∧
    (sign = [] ∨ sign = ['+'] ∨ sign = ['-']) ∧ Digits ds

/-- The regular expression `([0-9]+|[0-9]*\.[0-9]+)([eE][+-]?[0-9]+)?` -/
def NumericSyntax (s : Str) : Prop :=
  ∃ m e, s = m ++ e ∧
    ((m ≠ [] ∧ Digits m) ∨ ∃ ds fs, m = ds ++ '.' :: fs ∧ Digits ds ∧ Digits fs ∧ fs ≠ []) ∧
    (e = [] ∨ ∃ c sign ds, e = c :: (sign ++ ds) ∧ (c = 'e' ∨ c = 'E') ∧
      (sign = [] ∨ sign = ['+'] ∨ sign = ['-']) ∧ Digits ds ∧ ds ≠ [])

/-- `[A-Za-z_][A-Za-z0-9_]*` -/
def PlainIdentifier (s : Str) : Prop :=
  ∃ c cs, s = c :: cs ∧ (isAsciiLetter c ∨ c = '_') ∧
    ∀ d ∈ cs, isAsciiLetter d ∨ d = '_' ∨ isDigitChar d

/-- The position in `p ++ text` of a token located at `t` in `text`. -/
def moveAfter (p : Str) (t : Token) : Token :=
  ⟨t.line + p.count '\n', if t.line = 1 then t.column + (columnAfter p - 1) else t.column, t.literal⟩

/-- A comment literal: starts with `#`, `--` or `/*`. -/
def IsComment (l : Str) : Prop := IsLineComment l ∨ ∃ r, l = '/' :: '*' :: r

/-- May the gap `g` between the literals `prev` and `l` be replaced by `g'`?  Empty gaps stay empty and others
non-empty; before a comment the gap contains a newline if and only if it did; after a line comment it contains a
newline. -/
def GapOk (prev : Str) (g g' l : Str) : Prop :=
  (g = [] ↔ g' = []) ∧ (IsComment l → ('\n' ∈ g ↔ '\n' ∈ g')) ∧ (IsLineComment prev → '\n' ∈ g')

/-- `gaps'` are other gaps for the literals: any white space before the first and after the last literal, and
gaps as in `GapOk` between two literals. -/
inductive Respaced : (prev : Option Str) → (gaps gaps' literals : List Str) → Prop
  | last {prev : Option Str} {g g' : Str} (h : AllWs g) (h' : AllWs g') : Respaced prev [g] [g'] []
  | cons {prev : Option Str} {g g' l : Str} {gs gs' ls : List Str} (h : AllWs g) (h' : AllWs g')
      (ok : ∀ l', prev = some l' → GapOk l' g g' l) (rest : Respaced (some l) gs gs' ls) :
      Respaced prev (g :: gs) (g' :: gs') (l :: ls)

/-- Blanks in the place of all characters but newlines. -/
def blank (l : Str) : Str := l.map fun c => if c = '\n' then c else ' '

/-- A literal, or blanks in its place if it is a comment. -/
def blankComment (l : Str) : Str :=
  match l with
  | '#' :: _ => blank l
  | '-' :: '-' :: _ => blank l
  | '/' :: '*' :: _ => blank l
  | _ => l

/-- No literal `<` comes directly after a comment. -/
def NoBracketAfterComment (lits : List Str) : Prop :=
  ∀ x l y, lits = x ++ l :: ['<'] :: y → ¬ IsComment l

end Verif.Spec
