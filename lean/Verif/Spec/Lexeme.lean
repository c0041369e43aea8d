import Verif.Spec.Lexer
/-!
What the tokens of a text are: the kinds of literals with the place where each of them ends, and the texts that are
made of such literals.  Nothing here mentions the lexer itself.
-/
namespace Verif.Spec

/-- A letter or `_`. -/
def StartsWord (U : Unicode) (c : Char) : Prop := U.isAlphabetic c = true ∨ c = '_'

/-- A letter, a digit or `_`. -/
def InWord (U : Unicode) (c : Char) : Prop := U.isAlphabetic c = true ∨ isDigitChar c = true ∨ c = '_'

/-- A keyword or name that is not quoted. -/
def IsWordText (U : Unicode) (l : Str) : Prop :=
  ∃ c cs, l = c :: cs ∧ StartsWord U c ∧ ∀ d ∈ cs, InWord U d

/-- The text does not start with a character with the property `P` (it may be empty). -/
def NotBefore (P : Char → Prop) (rest : Str) : Prop := ∀ c r, rest = c :: r → ¬ P c

/-- A name in back quotes: it ends at the next back quote. -/
def QuotedName (l : Str) : Prop := ∃ body, l = '`' :: (body ++ ['`']) ∧ '`' ∉ body

/-- `[0-9]*`, then `.[0-9]*` or nothing, then `[eE][+-]?[0-9]*` or nothing, starting with a digit or with `.` and
a digit, and as long as possible: `rest` does not continue it. -/
def NumberBefore (l rest : Str) : Prop :=
  ∃ ds frac exp, l = ds ++ frac ++ exp ∧ Digits ds ∧
    (frac = [] ∨ ∃ fs, frac = '.' :: fs ∧ Digits fs) ∧ (exp = [] ∨ ExponentText exp) ∧
    (ds = [] → ∃ f fs, frac = '.' :: f :: fs) ∧
    NotBefore (fun c => isDigitChar c = true) rest ∧
    (exp = [] → NotBefore (fun c => c = 'e' ∨ c = 'E') rest) ∧
    (frac = [] → exp = [] → NotBefore (fun c => c = '.') rest) ∧
    (exp.length = 1 → NotBefore (fun c => c = '+' ∨ c = '-') rest)

/-- A comment that ends with its line: white space before the end of the line does not belong to it. -/
def LineCommentBefore (l rest : Str) : Prop :=
  IsLineComment l ∧ '\n' ∉ l ∧ (∀ x c, l = x ++ [c] → isWhitespaceChar c = false) ∧
    ∃ w r, rest = w ++ r ∧ AllWs w ∧ '\n' ∉ w ∧ (r = [] ∨ ∃ r', r = '\n' :: r')

/-- A comment `/* … */`: it ends with the first `*/`; the `*` of the opening `/*` may be the one of that `*/`. -/
def BlockComment (l : Str) : Prop :=
  (∃ r, l = '/' :: '*' :: r) ∧ (∃ body, l = body ++ ['*', '/']) ∧
    ∀ x y, l = x ++ '*' :: '/' :: y → y = []

/-- A template `{…}`, `{{…}}`, …: `n` opening braces (as many as there are), a body, and the first `n` closing
braces in a row after the first character of the body.  A single `{` before `@`, a digit or `,` does not open a
template. -/
def Template (l : Str) : Prop :=
  ∃ n c cs, l = List.replicate n '{' ++ c :: cs ++ List.replicate n '}' ∧ 1 ≤ n ∧ c ≠ '{' ∧
    (n = 1 → ¬ (c = '@' ∨ isDigitChar c = true ∨ c = ',')) ∧
    ∀ x y, cs ++ List.replicate n '}' = x ++ List.replicate n '}' ++ y → cs.length ≤ x.length

/-- Symbols of two characters.  `inType`: is a bracket of `ARRAY<…>` or `STRUCT<…>` open? -/
def doubles (inType : Bool) : List Str :=
  ["||".toList, "|>".toList, "<<".toList, "<=".toList, "<>".toList, "=>".toList, "!=".toList] ++
    if inType then [] else [">>".toList, ">=".toList]

/-- Characters that start a literal that is no symbol. -/
def OpensOther (U : Unicode) (c : Char) (rest : Str) : Prop :=
  isWhitespaceChar c = true ∨ isDigitChar c = true ∨ StartsWord U c ∨
    c ∈ ['"', '\'', '`', '#', '@', '{'] ∨
    (c = '.' ∧ ∃ d r, rest = d :: r ∧ isDigitChar d = true) ∨
    (c = '-' ∧ ∃ r, rest = '-' :: r) ∨ (c = '/' ∧ ∃ r, rest = '*' :: r)

/-- The literal `l` in front of the text `rest` is a token of one of these kinds. -/
inductive Lexeme (U : Unicode) (inType : Bool) : (l rest : Str) → Prop
  | word {l rest} (h : IsWordText U l) (stop : NotBefore (InWord U) rest) : Lexeme U inType l rest
  | number {l rest} (h : NumberBefore l rest) : Lexeme U inType l rest
  | string {q l body rest} (hq : q = '"' ∨ q = '\'') (h : QuotedOnce q l body)
      (stop : body = [] → NotBefore (· = q) rest) : Lexeme U inType l rest
  | string3 {q l body rest} (hq : q = '"' ∨ q = '\'') (h : QuotedThrice q l body) : Lexeme U inType l rest
  | backQuoted {l rest} (h : QuotedName l) : Lexeme U inType l rest
  | lineComment {l rest} (h : LineCommentBefore l rest) : Lexeme U inType l rest
  | blockComment {l rest} (h : BlockComment l) : Lexeme U inType l rest
  | parameter {n l rest} (hn : 1 ≤ n) (h : IsWordText U l) (stop : NotBefore (InWord U) rest) :
      Lexeme U inType (List.replicate n '@' ++ l) rest
  | quotedParameter {n l rest} (hn : 1 ≤ n) (h : QuotedName l) : Lexeme U inType (List.replicate n '@' ++ l) rest
  | brace {c r} (h : c = '@' ∨ isDigitChar c = true ∨ c = ',') : Lexeme U inType ['{'] (c :: r)
  | template {l rest} (h : Template l) : Lexeme U inType l rest
  | double {l rest} (h : l ∈ doubles inType) : Lexeme U inType l rest
  | single {c rest} (h : ¬ OpensOther U c rest)
      (stop : NotBefore (fun d => [c, d] ∈ doubles inType) rest) : Lexeme U inType [c] rest

/-- `code` consists of the literals with the gaps of white space before, between and after them, and each literal is
a token in front of the rest of the text; the type brackets are those of the literals before it. -/
structure IsTokenization (U : Unicode) (code : Str) (gaps lits : List Str) : Prop where
  count : gaps.length = lits.length + 1
  blank : ∀ g ∈ gaps, AllWs g
  text : code = interleave gaps lits
  token : ∀ i l, lits[i]? = some l →
    Lexeme U (decide (0 < openBrackets U none 0 (lits.take i))) l
      (interleave (gaps.drop (i + 1)) (lits.drop (i + 1)))

/-- The tokens of `code` end in front of `stuck`: this text is not empty, does not start with white space and with
no token of any kind. -/
def StuckAt (U : Unicode) (code : Str) (lits : List Str) (stuck : Str) : Prop :=
  ∃ gaps, gaps.length = lits.length + 1 ∧ (∀ g ∈ gaps, AllWs g) ∧
    code = interleave gaps lits ++ stuck ∧
    (∀ i l, lits[i]? = some l →
      Lexeme U (decide (0 < openBrackets U none 0 (lits.take i))) l
        (interleave (gaps.drop (i + 1)) (lits.drop (i + 1)) ++ stuck)) ∧
    (∃ c r, stuck = c :: r ∧ isWhitespaceChar c = false) ∧
    ∀ l rest, stuck = l ++ rest → ¬ Lexeme U (decide (0 < openBrackets U none 0 lits)) l rest

end Verif.Spec

namespace Verif.Spec

/-- One or more `@` without a name after them: `n` is the number of `@`. -/
def NamelessParameter (U : Unicode) (stuck : Str) (n : Nat) : Prop :=
  ∃ rest, stuck = List.replicate n '@' ++ rest ∧ 1 ≤ n ∧
    NotBefore (fun c => c = '@' ∨ c = '`' ∨ StartsWord U c) rest

/-- The error for a text whose tokens end in front of `stuck`: at `@` without a name, a message about the name
right after the last `@`; otherwise, a message about the end of the text there. -/
def StuckError (U : Unicode) (before stuck : Str) (e : Err) : Prop :=
  (∃ n, NamelessParameter U stuck n ∧
    e = ⟨lineAfter (before ++ List.replicate n '@'), columnAfter (before ++ List.replicate n '@'), .invalidIdent⟩) ∨
  ((¬ ∃ n, NamelessParameter U stuck n) ∧
    e = ⟨lineAfter (before ++ stuck), columnAfter (before ++ stuck), .unexpectedEof⟩)

end Verif.Spec
