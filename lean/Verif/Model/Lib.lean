import Verif.Model.Interp
import Verif.Model.Program
import Verif.Model.Lexer
/-! `parse_code` (src/parser.rs 42-51) and src/lib.rs. -/
namespace Verif
open Core Interp

/-- A call of a `parse_*` function of src/parser.rs with recursion depth at most `depth` and at most
`fuel` iterations of each loop. -/
def call (U : Unicode) (toks : List Token) (fuel depth : Nat) :
    Fn → List Val → PS → Out (Val × PS) :=
  callN U Program.defs toks fuel depth

/-- src/parser.rs 42-51: the loop of `parse_code`; the last `Nat` bounds the number of statements. -/
def parseLoop (U : Unicode) (toks : List Token) (fuel depth : Nat) :
    Nat → PS → List Node → Out (List Node)
  | 0, _, _ => .timeout
  | n + 1, ps, stmts =>
    if isEof toks ps 0 then do
      let n ← construct U toks ps .EOF
      .ok (stmts ++ [n])
    else match call U toks fuel depth .parse_statement [.bool true] ps with
      | .ok (.node stmt, ps') => match nextToken toks ps' with
        | .ok ps'' => parseLoop U toks fuel depth n ps'' (stmts ++ [stmt])
        | .err e => .err e
        | .panic p => .panic p
        | .timeout => .timeout
      | .ok _ => .panic .stuck
      | .err e => .err e
      | .panic p => .panic p
      | .timeout => .timeout

/-- src/parser.rs 19-52. `Parser::new(tokens).parse_code()`, with explicit bounds `fuel` on the iterations of every loop
and `depth` on the recursion depth; the outcome is `timeout` when a bound is exceeded. -/
def parseTokensWith (U : Unicode) (fuel depth : Nat) (toks : List Token) : Out (List Node) := do
  let ps ← Core.new toks
  parseLoop U toks fuel depth fuel ps []

/-- src/parser.rs 19-52. `Parser::new(tokens).parse_code()`: bounds that are proved never to be exceeded
(`Props.C12_parse_terminates`). -/
def parseTokens (U : Unicode) (toks : List Token) : Out (List Node) :=
  parseTokensWith U (toks.length + 1) (4 * toks.length) toks

/-- src/lib.rs 44-59: `tokenize` up to serialisation. -/
def tokenize (U : Unicode) (code : Str) : Out (List Token) := Lex.tokenize U code

/-- src/lib.rs 18-41: `parse` up to serialisation. -/
def parse (U : Unicode) (code : Str) : Out (List Node) := do
  let toks ← tokenize U code
  parseTokens U toks

end Verif
