import Verif.Spec.Parse
/-! What the error messages of `parse` say.  No helper of the parser is used. -/
namespace Verif.Spec

/-- The token is this word, whatever its case. -/
def Reads (U : Unicode) (t : Token) (w : String) : Prop := U.upper t.literal = w.toList

/-- The token is none of these words. -/
def NoneOf (U : Unicode) (t : Token) (ws : List String) : Prop := ∀ w ∈ ws, ¬ Reads U t w

/-- The tokens after the `i`-th one, without comments. -/
def ahead (toks : List Token) (i : Nat) : List Token := (toks.drop (i + 1)).filter fun t => !t.isComment

/-- How a token is shown in a message: `Token { line: 1, column: 2, literal: "x" }`, where `esc` says how the
characters of the literal are shown. -/
def showToken (esc : Char → Str) (t : Token) : Str :=
  "Token { line: ".toList ++ (toString t.line).toList ++ ", column: ".toList ++ (toString t.column).toList ++
    ", literal: \"".toList ++ t.literal.flatMap esc ++ "\" }".toList

/-- A kind of message: its text, whether the token at the position of the error is shown after it, and what is
true of that token, which is the `i`-th one. -/
structure Message where
  text : String
  shows : Bool
  claim : Unicode → List Token → Nat → Token → Prop

/-- The messages of the parser and what they mean. -/
def messages : List Message := [
  -- the error points at the end of the input
  ⟨"Followed by unexpected EOF", false, fun _ toks i _ => i + 1 = toks.length⟩,
  ⟨"expected )", false, fun U _ _ t => NoneOf U t [")"]⟩,
  -- the token follows a `NOT`
  ⟨"Expected `IN`, `LIKE` or `BETWEEN` but got: ", true, fun U toks i t =>
    NoneOf U t ["IN", "LIKE", "BETWEEN", "ENFORCED"] ∧
    ∃ j a, OnlyCommentsBetween toks j i ∧ toks[j]? = some a ∧ Reads U a "NOT"⟩,
  -- the token is `CREATE`, the words are not among the five tokens after it
  ⟨"Expected `SCHEMA`, `TABLE`, `VIEW`, `FUNCTION`, `PROCEDURE`, 'CAPACITY', 'RESERVATION' or 'ASSIGNMENT' but not found around here: ",
    true, fun U toks i t => Reads U t "CREATE" ∧ 5 ≤ (ahead toks i).length ∧
    ∀ u ∈ (ahead toks i).take 5, NoneOf U u ["SCHEMA", "TABLE", "VIEW", "FUNCTION", "PROCEDURE", "ROW", "CAPACITY",
      "RESERVATION", "ASSIGNMENT", "SEARCH", "VECTOR", "MODEL"]⟩,
  -- the token is `ALTER`, the words are not among the five tokens after it
  ⟨"Expected `SCHEMA`, `TABLE` or `VIEW` but not found around here: ",
    true, fun U toks i t => Reads U t "ALTER" ∧ 5 ≤ (ahead toks i).length ∧
    ∀ u ∈ (ahead toks i).take 5, NoneOf U u ["SCHEMA", "TABLE", "COLUMN", "VIEW", "VECTOR", "ORGANIZATION", "PROJECT",
      "BI_CAPACITY", "CAPACITY", "RESERVATION", "MODEL"]⟩,
  ⟨"Expected pipe operator but got: ", true, fun U _ _ t => NoneOf U t ["SELECT", "EXTEND", "SET", "DROP", "RENAME",
    "AS", "WHERE", "CALL", "ORDER", "LIMIT", "AGGREGATE", "UNION", "INTERSECT", "EXCEPT", "JOIN", "INNER", "FULL",
    "LEFT", "RIGHT", "CROSS", "OUTER", "TABLESAMPLE", "PIVOT", "UNPIVOT", "WITH", "MATCH_RECOGNIZE", "DISTINCT"]⟩,
  ⟨"Expected `DELETE`, `UPDATE` or `INSERT` but got: ", true,
    fun U _ _ t => NoneOf U t ["DELETE", "UPDATE", "INSERT"]⟩,
  ⟨"Expected `SET`, `ADD` or `DROP` but got: ", true, fun U _ _ t => NoneOf U t ["SET", "ADD", "DROP"]⟩,
  ⟨"Expected `SET`, `ADD` `RENAME` or `DROP` but got: ", true,
    fun U _ _ t => NoneOf U t ["SET", "ADD", "RENAME", "DROP", "ALTER"]⟩,
  ⟨"Expected `SET` or `DROP` but got : ", true, fun U _ _ t => NoneOf U t ["SET", "DROP"]⟩,
  -- nothing is claimed about the token
  ⟨"The statement is not properly labeled: ", true, fun _ _ _ _ => True⟩]

/-- `e` has a message of the kind `m` about the `i`-th token `t`, and the message is right. -/
structure Tells (U : Unicode) (esc : Char → Str) (toks : List Token) (e : Err) (text : Str) (m : Message) (i : Nat)
    (t : Token) : Prop where
  token : toks[i]? = some t
  line : e.line = t.line
  column : e.column = t.column
  text : text = m.text.toList ++ if m.shows then showToken esc t else []
  claim : m.claim U toks i t

end Verif.Spec
