import Verif.Model.Token
/-!
Which texts may be expensive to parse: those where many opening parentheses stand before something
that could be a query.
-/
namespace Verif.Spec
open Verif

/-- Does the list begin with an opening parenthesis, and is the next token, comments aside, one of
`SELECT`, `WITH`, `FROM` and `(`? -/
def opensQuery (U : Unicode) : List Token → Bool
  | [] => false
  | t :: ts => U.upper t.literal == "(".toList && match ts.find? fun u => !u.isComment with
    | some u => ["SELECT", "WITH", "FROM", "("].any fun k => U.upper u.literal == k.toList
    | none => false

/-- The number of places where a parenthesis opens something that could be a query. -/
def openings (U : Unicode) : List Token → Nat
  | [] => 0
  | t :: ts => (if opensQuery U (t :: ts) then 1 else 0) + openings U ts

/-- A query with `n` others inside of it, as words. -/
def nestedQuery : Nat → List String
  | 0 => ["SELECT", "1"]
  | n + 1 => ["SELECT", "1", "FROM", "(", "("] ++ nestedQuery n ++ [")", "JOIN", "U", ")"]

/-- A statement made from it, with a blank after each word: `SELECT 1 FROM ( … ) ;`. -/
def nestedText (n : Nat) : Str :=
  (["SELECT", "1", "FROM", "("] ++ nestedQuery n ++ [")", ";"]).flatMap fun w => w.toList ++ [' ']

end Verif.Spec
