import Verif.Model.Core
/-!
The command language in which the `parse_*` functions of src/parser.rs are embedded (see
tools/translate.py).  Each construct is one primitive step of the Rust code.
-/
namespace Verif

/-- Arguments of src/parser.rs 173 `get_token`. Argument of `get_token`: a constant, or a variable plus a constant. -/
inductive Off
  | lit (n : Nat)
  | var (x : Var) (add : Nat)
  deriving DecidableEq, Repr

/-- Calls in src/parser.rs, such as 287. Arguments of calls. -/
inductive Atom
  /-- a local variable; a `Node` argument is moved -/
  | var (x : Var)
  | bool (b : Bool)
  | nat (n : Nat)
  /-- `!x` -/
  | notVar (x : Var)
  /-- `&vec!["A", "B"]` -/
  | kws (ks : List Kw)
  /-- `x == "A"` for a string variable -/
  | strEq (x : Var) (k : Kw)
  deriving DecidableEq, Repr

/-- src/parser.rs, such as 354-357, 706-720, 943-958. Conditions.  `?` inside a condition may fail, `&&` and `||` short-circuit. -/
inductive Cond
  /-- `get_token(off)?.in_(&vec![..])`, `.is(..)`, or `literal.to_uppercase()` compared/matched -/
  | up (off : Off) (ks : List Kw)
  /-- `get_token(off)?.literal` compared/matched without upper-casing -/
  | raw (off : Off) (ks : List Kw)
  /-- `get_token(off)?.in_(x)` with a `Vec<&str>` variable -/
  | upVar (off : Off) (x : Var)
  | isIdent (off : Off)
  | isStr (off : Off)
  | isNum (off : Off)
  /-- `is_eof(off)` -/
  | eof (off : Off)
  /-- `get_token(off)` is `Ok` (the error is caught, src/parser.rs 948-951) -/
  | hasTok (off : Off)
  | bvar (x : Var)
  | const (b : Bool)
  /-- `get_precedence(1)? < x` -/
  | precLt (x : Var)
  /-- `0 < x.len()` -/
  | lenPos (x : Var)
  /-- `x.len() == 1` -/
  | lenOne (x : Var)
  /-- string variable equal to a constant -/
  | strIs (x : Var) (k : Kw)
  /-- `x.node_type == nt` -/
  | typeIs (x : Var) (nt : NodeType)
  /-- the node reached from `x` through `left` children of `DotOperator`s has type `nt`
  (src/parser.rs 706-715) -/
  | leftmostIs (x : Var) (nt : NodeType)
  /-- `x.children.keys().any(..)` -/
  | hasAnyKey (x : Var) (ks : List Key)
  /-- `get_token(0)?.literal.chars().next().unwrap() == c` -/
  | firstCharIs (c : Char)
  /-- `get_token(0)?.literal.chars().last().unwrap() == c` -/
  | lastCharIs (c : Char)
  /-- tokens 0 and 1 touch each other (src/parser.rs 956-958) -/
  | adjacent
  | and (a b : Cond)
  | or (a b : Cond)
  | not (a : Cond)
  deriving DecidableEq, Repr

/-- src/parser.rs, such as 393, 409. Right-hand sides. -/
inductive Exp
  /-- a local variable, moved -/
  | var (x : Var)
  /-- `self.construct_node(nt)?` -/
  | construct (nt : NodeType)
  /-- `Node::empty(nt)` -/
  | empty (nt : NodeType)
  /-- `self.f(args)?` -/
  | call (f : Fn) (args : List Atom)
  /-- `Vec::new()` -/
  | nilVec
  /-- `x.pop().unwrap()` -/
  | pop (x : Var)
  /-- `self.get_precedence(off)?` -/
  | prec (off : Off)
  | natLit (n : Nat)
  | boolLit (b : Bool)
  | kws (ks : List Kw)
  /-- `self.get_token(off)?.literal.to_uppercase()` -/
  | upperLit (off : Off)
  | cond (c : Cond)
  deriving DecidableEq, Repr

/-- src/parser.rs. Commands. -/
inductive Cmd
  | skip
  /-- `a; b` -/
  | seq (a b : Cmd)
  /-- `self.next_token()?` -/
  | next
  /-- `x = e` (or `let x = e`) -/
  | set (x : Var) (e : Exp)
  /-- `x.push_node(k, e)` -/
  | push (x : Var) (k : Key) (e : Exp)
  /-- `x.push_node_vec(k, e)` -/
  | pushVec (x : Var) (k : Key) (e : Exp)
  /-- `x.push(e)` on a vector -/
  | append (x : Var) (e : Exp)
  /-- `x.node_type = nt` -/
  | setType (x : Var) (nt : NodeType)
  | ite (c : Cond) (a b : Cmd)
  | loop (a : Cmd)
  | brk
  /-- `return Ok(e)`, or the tail expression of a function -/
  | ret (e : Exp)
  /-- `return Err(BQ2CSTError::from_token(self.get_token(off)?, ..))` at a source line -/
  | fail (off : Off) (line : Nat)
  /-- `for x in lo..hi { body }`; with `none` the loop has no upper bound -/
  | scan (x : Var) (lo : Nat) (hi : Option Atom) (body : Cmd)
  /-- `while let Some(x) = v.pop() { body }` where `body` does not use `v` -/
  | drain (v x : Var) (body : Cmd)
  /-- `x = match self.f(args) { Ok(n) => n, Err(_) => { restore the parser state; handler } }`
  (src/parser.rs 1246-1266) -/
  | tryElse (x : Var) (f : Fn) (args : List Atom) (handler : Cmd)
  deriving DecidableEq, Repr

/-- `a; b` -/
infixr:30 " ;; " => Cmd.seq

/-- src/parser.rs, `fn parse_*`. A function: parameter names and body. -/
structure FunDef where
  params : List Var
  body : Cmd

end Verif
