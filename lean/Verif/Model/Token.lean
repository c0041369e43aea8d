import Verif.Model.Basic
import Verif.Model.Names
/-! src/token.rs -/
namespace Verif

/-- src/token.rs 8-13: `struct Token`. -/
structure Token where
  line : Nat
  column : Nat
  literal : Str
  deriving DecidableEq, Repr, Inhabited

namespace Token

/-- src/token.rs 23-31: `Token::eof`. -/
def eof : Token := ⟨usizeMax, usizeMax, []⟩

/-- src/token.rs 129. Length of a string in bytes (`String::len`). -/
def byteLen : Str → Nat
  | [] => 0
  | c :: cs => c.utf8Size + byteLen cs

/-- src/token.rs 128-134: `quoted_by`; the two `unwrap`s are guarded by the length test. -/
def quotedBy (t : Token) (ch : Char) : Bool :=
  if byteLen t.literal < 2 then false
  else t.literal.head? == some ch && t.literal.getLast? == some ch

/-- src/token.rs 32-40: `is_string`. -/
def isString (t : Token) : Bool := t.quotedBy '"' || t.quotedBy '\''

/-- src/token.rs 43, 50, 61, 97, 102. The literal in upper case, `self.literal.to_uppercase()`. -/
def upper (U : Unicode) (t : Token) : Str := U.upper t.literal

/-- src/token.rs 41-51: `in_` and `is`, for upper-case ASCII constants (`v.to_uppercase() == v`). -/
def inKws (U : Unicode) (t : Token) (ks : List Kw) : Bool := ks.any fun k => t.upper U == k.lit

/-- src/token.rs 99-107: `is_reserved_keyword`. -/
def isReservedKeyword (U : Unicode) (t : Token) : Bool := t.inKws U reservedKeywords

/-- First character of a plain identifier, src/token.rs 66-69. -/
def identStart (c : Char) : Bool := ('a' ≤ c && c ≤ 'z') || ('A' ≤ c && c ≤ 'Z') || c == '_'

/-- Other characters of a plain identifier, src/token.rs 70-75. -/
def identRest (c : Char) : Bool := identStart c || ('0' ≤ c && c ≤ '9')

/-- src/token.rs 52-77: `is_identifier` (the second keyword loop repeats the first). -/
def isIdentifier (U : Unicode) (t : Token) : Bool :=
  if t.quotedBy '`' then true
  else if t.isReservedKeyword U then false
  else match t.literal with
    | [] => false
    | c :: cs => identStart c && cs.all identRest

/-- src/token.rs 78-84: `is_parameter`. -/
def isParameter (t : Token) : Bool :=
  match t.literal with
  | c :: _ => c == '?' || c == '@'
  | [] => false

/-- src/token.rs 85-91: `is_template`. -/
def isTemplate (t : Token) : Bool :=
  match t.literal with
  | c :: _ => c == '{'
  | [] => false

/-- The rest of a number after its mantissa: `([eE][\+\-]?[0-9]+)?$` in src/token.rs 93. -/
def expPart : Str → Bool
  | [] => true
  | c :: cs =>
    (c == 'e' || c == 'E') &&
    (let ds := match cs with
      | d :: ds' => if d == '+' || d == '-' then ds' else d :: ds'
      | [] => []
     !ds.isEmpty && ds.all isDigitChar)

/-- src/token.rs 92-95: `is_numeric`, i.e. the regular expression
`^([0-9]+|([0-9]*\.[0-9]+))([eE][\+\-]?[0-9]+)?$`, matched by maximal munch of digits (the regex is
unambiguous: digits never start the next component). -/
def isNumeric (t : Token) : Bool :=
  let ds := t.literal.takeWhile isDigitChar
  let r := t.literal.dropWhile isDigitChar
  match r with
  | '.' :: r' =>
    let fs := r'.takeWhile isDigitChar
    !fs.isEmpty && expPart (r'.dropWhile isDigitChar)
  | _ => !ds.isEmpty && expPart r

/-- src/token.rs 96-98 (`is_boolean`). -/
def isBoolean (U : Unicode) (t : Token) : Bool :=
  t.upper U == Kw.lit .TRUE || t.upper U == Kw.lit .FALSE

/-- src/token.rs 108-127: `is_comment`. -/
def isComment (t : Token) : Bool :=
  match t.literal with
  | '#' :: _ => true
  | '-' :: '-' :: _ => true
  | '/' :: '*' :: _ => true
  | _ => false

end Token
end Verif
