/-!
Basic vocabulary of the model: strings, outcomes, Unicode parameters.
-/
namespace Verif

/-- src/token.rs 12 (`literal: String`), src/lexer.rs 8 (`input: Vec<char>`). A Rust `String` seen as its list of `char`s. -/
abbrev Str := List Char

/-- Messages of `BQ2CSTError` (src/error.rs 5-9).  The text itself is abstracted to its origin:
`unexpectedEof` is `"Unexpected EOF."` (src/lexer.rs 61-65), `invalidIdent` is
`"Invalid character as an identifier."` (src/lexer.rs 298-302), `followedByEof` is
`"Followed by unexpected EOF"` (src/parser.rs 165-168), `site n l` is the message built at line `n` of
src/parser.rs for a token with the literal `l`, whose position is that of the error.  `Message.text` gives the
text. -/
inductive Msg
  | unexpectedEof | invalidIdent | followedByEof | site (line : Nat) (literal : Str)
  deriving DecidableEq, Repr, Inhabited

/-- src/error.rs 5-9: `struct BQ2CSTError`. -/
structure Err where
  line : Nat
  column : Nat
  msg : Msg
  deriving DecidableEq, Repr, Inhabited

/-- src/lexer.rs 41, 156-157; src/parser.rs 393, 945, 955, 2329 and the indexing of `tokens`. Reasons for which the Rust program would panic.  `stuck` is no Rust panic: it marks an ill-typed
use of a variable in the deep embedding and is proved unreachable. -/
inductive Panic
  /-- `tokens.last().unwrap()` on no token, src/lexer.rs 156-157 -/
  | noLastToken
  /-- slice index out of range -/
  | index
  /-- `literal.chars().next().unwrap()` / `.last().unwrap()` on an empty literal, src/parser.rs 945, 955 -/
  | emptyLiteral
  /-- `pop().unwrap()` on an empty vector, src/parser.rs 393, 2329 -/
  | emptyPop
  /-- ill-typed use of a variable in the embedding (not a Rust panic) -/
  | stuck
  deriving DecidableEq, Repr, Inhabited

/-- src/error.rs 28: `BQ2CSTResult`. Outcome of a computation: `Ok`, `Err`, a panic, or running out of the fuel of the model. -/
inductive Out (α : Type)
  | ok (a : α)
  | err (e : Err)
  | panic (p : Panic)
  | timeout
  deriving DecidableEq, Repr, Inhabited

namespace Out

/-- src/error.rs 28 (used all over src/parser.rs). Sequencing, the `?` operator. -/
@[inline] def bind {α β : Type} (x : Out α) (f : α → Out β) : Out β :=
  match x with
  | ok a => f a
  | err e => err e
  | panic p => panic p
  | timeout => timeout

instance : Monad Out where
  pure := ok
  bind := bind

@[simp] theorem pure_eq {α : Type} (a : α) : (pure a : Out α) = ok a := rfl
@[simp] theorem bind_ok {α β : Type} (a : α) (f : α → Out β) : (ok a >>= f) = f a := rfl
@[simp] theorem bind_err {α β : Type} (e : Err) (f : α → Out β) : ((err e : Out α) >>= f) = err e := rfl
@[simp] theorem bind_panic {α β : Type} (p : Panic) (f : α → Out β) :
    ((panic p : Out α) >>= f) = panic p := rfl
@[simp] theorem bind_timeout {α β : Type} (f : α → Out β) : ((timeout : Out α) >>= f) = timeout := rfl

end Out

/-- src/lexer.rs 436, 443 and src/token.rs 43, 50. The Unicode tables used by the Rust standard library that are left as parameters:
`char::is_alphabetic` and the per-character mapping of `str::to_uppercase`. -/
structure Unicode where
  isAlphabetic : Char → Bool
  toUpper : Char → List Char

/-- src/lexer.rs 448-453 and 290. `char::is_whitespace`: the Unicode property `White_Space` (all 25 code points). -/
def isWhitespaceChar (c : Char) : Bool :=
  let n := c.toNat
  (0x9 ≤ n && n ≤ 0xD) || n == 0x20 || n == 0x85 || n == 0xA0 || n == 0x1680 ||
  (0x2000 ≤ n && n ≤ 0x200A) || n == 0x2028 || n == 0x2029 || n == 0x202F || n == 0x205F ||
  n == 0x3000

/-- src/lexer.rs 420-425 and 443. `char::is_digit(10)`: ASCII digits only. -/
def isDigitChar (c : Char) : Bool := '0' ≤ c && c ≤ '9'

/-- src/token.rs 67, 72. ASCII letters. -/
def isAsciiLetter (c : Char) : Bool := ('a' ≤ c && c ≤ 'z') || ('A' ≤ c && c ≤ 'Z')

/-- The standard library behind src/lexer.rs 436, 443 and src/token.rs 43, 50. What is assumed about the Unicode tables (all true of Unicode): their ASCII part, that no
alphabetic character is white space, that upper-casing never yields the empty string and that an
ASCII character which is no capital letter only arises from itself. -/
structure Unicode.Lawful (U : Unicode) : Prop where
  alpha_ascii : ∀ c : Char, c.toNat < 128 → U.isAlphabetic c = isAsciiLetter c
  alpha_not_ws : ∀ c : Char, U.isAlphabetic c = true → isWhitespaceChar c = false
  upper_ascii : ∀ c : Char, c.toNat < 128 → U.toUpper c = [c.toUpper]
  upper_ne_nil : ∀ c : Char, U.toUpper c ≠ []
  upper_sym : ∀ c d : Char, d ∈ U.toUpper c → d.toNat < 128 → ¬ ('A' ≤ d ∧ d ≤ 'Z') → c = d

/-- src/token.rs 43, 50, 61, 97, 102 and src/lexer.rs 156-157. `str::to_uppercase`: maps every character, concatenates. -/
def Unicode.upper (U : Unicode) (s : Str) : Str := s.flatMap U.toUpper

/-- Models no code in /repo (no .rs file). A concrete instance used for examples: the ASCII rules, plus `ſ` (U+017F) as an alphabetic
character with upper case `S`, `ß` with upper case `SS`, and every other non-ASCII character
non-alphabetic and its own upper case. -/
def Unicode.sample : Unicode where
  isAlphabetic c := isAsciiLetter c || c == 'ſ' || c == 'ß'
  toUpper c := if c == 'ſ' then ['S'] else if c == 'ß' then ['S', 'S'] else [c.toUpper]

/-- src/token.rs 27-28, src/parser.rs 131, 145, 287. `usize::MAX` on wasm32. -/
def usizeMax : Nat := 4294967295

end Verif
