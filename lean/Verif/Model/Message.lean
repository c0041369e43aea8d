import Verif.Model.Lib
/-! The texts of error messages: the `message` of src/error.rs 8. -/
namespace Verif.Message

/-- `{:?}` of a `usize` (`#[derive(Debug)]` of src/token.rs 8): decimal digits. -/
def decimal (n : Nat) : Str := Nat.toDigits 10 n

/-- `{:?}` of a token, `#[derive(Debug)]` of src/token.rs 8-13.  The literal is shown between quotes; `esc` is how
the standard library shows a character inside a string (`\"` for a quote and so on), left as a parameter. -/
def debugToken (esc : Char → Str) (t : Token) : Str :=
  "Token { line: ".toList ++ decimal t.line ++ ", column: ".toList ++ decimal t.column ++
    ", literal: \"".toList ++ t.literal.flatMap esc ++ "\" }".toList

/-- The arguments of `from_token` in src/parser.rs, by line: the constant text and whether `{:?}` of the token
follows.  In all of them the token shown is the one that gives the position. -/
def templates : List (Nat × Str × Bool) := [
  -- src/parser.rs 133-139
  (133, "Expected `IN`, `LIKE` or `BETWEEN` but got: ".toList, true),
  -- src/parser.rs 312-315
  (312, "expected )".toList, false),
  -- src/parser.rs 789-795
  (789, "Expected `LIKE`, `BETWEEN` or `IN` but got: ".toList, true),
  -- src/parser.rs 799-802
  (799, "Something went wrong.".toList, false),
  -- src/parser.rs 1141-1144
  (1141, "Expected `SCHEMA`, `TABLE`, `VIEW`, `FUNCTION`, `PROCEDURE`, 'CAPACITY', 'RESERVATION' or 'ASSIGNMENT' but not found around here: ".toList, true),
  -- src/parser.rs 1172-1178
  (1172, "Expected `SCHEMA`, `TABLE` or `VIEW` but not found around here: ".toList, true),
  -- src/parser.rs 2021-2024
  (2021, "expected )".toList, false),
  -- src/parser.rs 2294-2297
  (2294, "Expected pipe operator but got: ".toList, true),
  -- src/parser.rs 2695-2701
  (2695, "Expected `DELETE`, `UPDATE` or `INSERT` but got: ".toList, true),
  -- src/parser.rs 3380-3386
  (3380, "Expected `SET`, `ADD` or `DROP` but got: ".toList, true),
  -- src/parser.rs 3554-3560
  (3554, "Expected `SET`, `ADD` `RENAME` or `DROP` but got: ".toList, true),
  -- src/parser.rs 3610-3616
  (3610, "Expected `SET` or `DROP` but got : ".toList, true),
  -- src/parser.rs 4108-4114
  (4108, "The statement is not properly labeled: ".toList, true)]

/-- The text of the message made at a line of src/parser.rs (see `templates`). -/
def template (line : Nat) : Str × Bool := (templates.lookup line).getD ([], false)

/-- The `message` of an error: src/lexer.rs 64, 301, src/parser.rs 167 and the calls of `from_token`. -/
def text (esc : Char → Str) (e : Err) : Str :=
  match e.msg with
  | .unexpectedEof => "Unexpected EOF.".toList
  | .invalidIdent => "Invalid character as an identifier.".toList
  | .followedByEof => "Followed by unexpected EOF".toList
  | .site n l => (template n).1 ++ if (template n).2 then debugToken esc ⟨e.line, e.column, l⟩ else []

end Verif.Message
