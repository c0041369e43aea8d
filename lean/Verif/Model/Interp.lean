import Verif.Model.Syntax
/-! Interpreter of the command language. -/
namespace Verif

/-- Locals of the functions in src/parser.rs. Values of local variables. -/
inductive Val
  | unit
  | node (n : Node)
  | vec (ns : List Node)
  | bool (b : Bool)
  | nat (n : Nat)
  | str (s : Str)
  | kws (ks : List Kw)
  deriving Inhabited

/-- Locals of the functions in src/parser.rs. Local variables.  Moving out of a variable leaves its value; the analysis checks that moved
variables are not used again (Rust's borrow checker guarantees it for the source). -/
abbrev Env := Var → Val

/-- Assignments in src/parser.rs. `x = v`. -/
def Env.set (env : Env) (x : Var) (v : Val) : Env := fun y => if y = x then v else env y

/-- src/parser.rs 10-16 (the parser) and the locals of a function. State of a function activation. -/
structure St where
  ps : PS
  env : Env

/-- Control flow of the functions in src/parser.rs. How a command ends. -/
inductive Flow
  | norm
  | brk
  | ret (v : Val)

/-- src/parser.rs 10-16 (`tokens`) and the bounds of the model. What the interpreter needs from its surroundings: Unicode tables, the tokens, a bound on the
number of iterations of a loop and the meaning of calls. -/
structure Ctx where
  U : Unicode
  toks : List Token
  fuel : Nat
  call : Fn → List Val → PS → Out (Val × PS)

namespace Interp
open Core

/-- Arguments of src/parser.rs 173 `get_token`. Value of an offset. -/
def evalOff (env : Env) : Off → Out Nat
  | .lit n => .ok n
  | .var x k => match env x with
    | .nat n => .ok (n + k)
    | _ => .panic .stuck

/-- src/parser.rs 173-176. The token an offset refers to. -/
def offTok (C : Ctx) (s : St) (o : Off) : Out Token :=
  match evalOff s.env o with
  | .ok n => getToken C.toks s.ps n
  | .err e => .err e
  | .panic p => .panic p
  | .timeout => .timeout

/-- Arguments of calls in src/parser.rs, such as those in line 287. Value of an argument. -/
def evalAtom (env : Env) : Atom → Out Val
  | .var x => .ok (env x)
  | .bool b => .ok (.bool b)
  | .nat n => .ok (.nat n)
  | .notVar x => match env x with
    | .bool b => .ok (.bool (!b))
    | _ => .panic .stuck
  | .kws ks => .ok (.kws ks)
  | .strEq x k => match env x with
    | .str s => .ok (.bool (s == k.lit))
    | _ => .panic .stuck

/-- Arguments of calls in src/parser.rs. Values of arguments. -/
def evalAtoms (env : Env) : List Atom → Out (List Val)
  | [] => .ok []
  | a :: as => do
    let v ← evalAtom env a
    let vs ← evalAtoms env as
    .ok (v :: vs)

/-- Do two tokens touch?  src/parser.rs 956-958. -/
def adjacentToks (a b : Token) : Bool :=
  a.line == b.line && a.column + a.literal.length == b.column

/-- Conditions in src/parser.rs, such as 354-357, 706-720, 943-958. Value of a condition. -/
def evalCond (C : Ctx) (s : St) : Cond → Out Bool
  | .up o ks => do let t ← offTok C s o; .ok (t.inKws C.U ks)
  | .raw o ks => do let t ← offTok C s o; .ok (ks.any fun k => t.literal == k.lit)
  | .upVar o x => do
    let t ← offTok C s o
    match s.env x with
    | .kws ks => .ok (t.inKws C.U ks)
    | _ => .panic .stuck
  | .isIdent o => do let t ← offTok C s o; .ok (t.isIdentifier C.U)
  | .isStr o => do let t ← offTok C s o; .ok t.isString
  | .isNum o => do let t ← offTok C s o; .ok t.isNumeric
  | .eof o => do let n ← evalOff s.env o; .ok (isEof C.toks s.ps n)
  | .hasTok o => do
    let n ← evalOff s.env o
    match getToken C.toks s.ps n with
    | .ok _ => .ok true
    | .err _ => .ok false
    | .panic p => .panic p
    | .timeout => .timeout
  | .bvar x => match s.env x with
    | .bool b => .ok b
    | _ => .panic .stuck
  | .const b => .ok b
  | .precLt x => do
    let p ← getPrecedence C.U C.toks s.ps 1
    match s.env x with
    | .nat n => .ok (p < n)
    | _ => .panic .stuck
  | .lenPos x => match s.env x with
    | .vec ns => .ok (0 < ns.length)
    | _ => .panic .stuck
  | .lenOne x => match s.env x with
    | .vec ns => .ok (ns.length == 1)
    | _ => .panic .stuck
  | .strIs x k => match s.env x with
    | .str v => .ok (v == k.lit)
    | _ => .panic .stuck
  | .typeIs x nt => match s.env x with
    | .node n => .ok (n.ty == nt)
    | _ => .panic .stuck
  | .leftmostIs x nt => match s.env x with
    | .node n => .ok (n.leftmostType == nt)
    | _ => .panic .stuck
  | .hasAnyKey x ks => match s.env x with
    | .node n => .ok (n.kids.keys.any fun k => ks.contains k)
    | _ => .panic .stuck
  | .firstCharIs c => do
    let t ← getToken C.toks s.ps 0
    match t.literal.head? with
    | some d => .ok (d == c)
    | none => .panic .emptyLiteral
  | .lastCharIs c => do
    let t ← getToken C.toks s.ps 0
    match t.literal.getLast? with
    | some d => .ok (d == c)
    | none => .panic .emptyLiteral
  | .adjacent => do
    let a ← getToken C.toks s.ps 0
    let b ← getToken C.toks s.ps 1
    .ok (adjacentToks a b)
  | .and a b => do if ← evalCond C s a then evalCond C s b else .ok false
  | .or a b => do if ← evalCond C s a then .ok true else evalCond C s b
  | .not a => do let x ← evalCond C s a; .ok (!x)

/-- Expressions in src/parser.rs, such as 393, 409. Value of a right-hand side and the state after evaluating it. -/
def evalExp (C : Ctx) (s : St) : Exp → Out (Val × St)
  | .var x => .ok (s.env x, s)
  | .construct nt => do let n ← construct C.U C.toks s.ps nt; .ok (.node n, s)
  | .empty nt => .ok (.node (Node.empty nt), s)
  | .call f args => do
    let vs ← evalAtoms s.env args
    let (v, ps) ← C.call f vs s.ps
    .ok (v, { s with ps := ps })
  | .nilVec => .ok (.vec [], s)
  | .pop x => match s.env x with
    | .vec ns => match ns.getLast? with
      | some n => .ok (.node n, { s with env := s.env.set x (.vec ns.dropLast) })
      | none => .panic .emptyPop
    | _ => .panic .stuck
  | .prec o => do
    let n ← evalOff s.env o
    let p ← getPrecedence C.U C.toks s.ps n
    .ok (.nat p, s)
  | .natLit n => .ok (.nat n, s)
  | .boolLit b => .ok (.bool b, s)
  | .kws ks => .ok (.kws ks, s)
  | .upperLit o => do let t ← offTok C s o; .ok (.str (t.upper C.U), s)
  | .cond c => do let b ← evalCond C s c; .ok (.bool b, s)

/-- `loop` and `while` in src/parser.rs, such as 943. Iterate a loop body at most `n` times. -/
def iterate (f : St → Out (Flow × St)) : Nat → St → Out (Flow × St)
  | 0, _ => .timeout
  | n + 1, s => match f s with
    | .ok (.norm, s') => iterate f n s'
    | .ok (.brk, s') => .ok (.norm, s')
    | .ok (.ret v, s') => .ok (.ret v, s')
    | .err e => .err e
    | .panic p => .panic p
    | .timeout => .timeout

/-- `for` in src/parser.rs, such as 1047. `for x in i..i+n`; `done` is the outcome after the last iteration. -/
def scanLoop (f : St → Out (Flow × St)) (x : Var) (done : St → Out (Flow × St)) :
    (n i : Nat) → St → Out (Flow × St)
  | 0, _, s => done s
  | n + 1, i, s => match f { s with env := s.env.set x (.nat i) } with
    | .ok (.norm, s') => scanLoop f x done n (i + 1) s'
    | .ok (.brk, s') => .ok (.norm, s')
    | .ok (.ret v, s') => .ok (.ret v, s')
    | .err e => .err e
    | .panic p => .panic p
    | .timeout => .timeout

/-- `while let` in src/parser.rs 2330. `while let Some(x) = v.pop()` over the reversed contents of `v`. -/
def drainLoop (f : St → Out (Flow × St)) (x : Var) : List Node → St → Out (Flow × St)
  | [], s => .ok (.norm, s)
  | n :: ns, s => match f { s with env := s.env.set x (.node n) } with
    | .ok (.norm, s') => drainLoop f x ns s'
    | .ok (.brk, s') => .ok (.norm, s')
    | .ok (.ret v, s') => .ok (.ret v, s')
    | .err e => .err e
    | .panic p => .panic p
    | .timeout => .timeout

/-- Statements in src/parser.rs; the try/restore of 1246-1266 is `tryElse`. Effect of a command.  Loops without a bound of their own are cut off after `fuel` iterations
(`timeout`); this is proved never to happen when `fuel` exceeds the number of tokens. -/
def exec (C : Ctx) : Cmd → St → Out (Flow × St)
  | .skip, s => .ok (.norm, s)
  | .seq a b, s => match exec C a s with
    | .ok (.norm, s') => exec C b s'
    | r => r
  | .next, s => do let ps ← nextToken C.toks s.ps; .ok (.norm, { s with ps := ps })
  | .set x e, s => do let (v, s') ← evalExp C s e; .ok (.norm, { s' with env := s'.env.set x v })
  | .push x k e, s => do
    let (v, s') ← evalExp C s e
    match s'.env x, v with
    | .node n, .node c => .ok (.norm, { s' with env := s'.env.set x (.node (n.pushNode k c)) })
    | _, _ => .panic .stuck
  | .pushVec x k e, s => do
    let (v, s') ← evalExp C s e
    match s'.env x, v with
    | .node n, .vec cs => .ok (.norm, { s' with env := s'.env.set x (.node (n.pushVec k cs)) })
    | _, _ => .panic .stuck
  | .append x e, s => do
    let (v, s') ← evalExp C s e
    match s'.env x, v with
    | .vec ns, .node c => .ok (.norm, { s' with env := s'.env.set x (.vec (ns ++ [c])) })
    | _, _ => .panic .stuck
  | .setType x nt, s => match s.env x with
    | .node n => .ok (.norm, { s with env := s.env.set x (.node (n.setType nt)) })
    | _ => .panic .stuck
  | .ite c a b, s => match evalCond C s c with
    | .ok true => exec C a s
    | .ok false => exec C b s
    | .err e => .err e
    | .panic p => .panic p
    | .timeout => .timeout
  | .loop a, s => iterate (exec C a) C.fuel s
  | .brk, s => .ok (.brk, s)
  | .ret e, s => do let (v, s') ← evalExp C s e; .ok (.ret v, s')
  | .fail o line, s => do let t ← offTok C s o; .err ⟨t.line, t.column, .site line t.literal⟩
  | .scan x lo none body, s =>
    scanLoop (exec C body) x (fun _ => .timeout) C.fuel lo s
  | .scan x lo (some hi) body, s => match evalAtom s.env hi with
    | .ok (.nat h) => scanLoop (exec C body) x (fun s => .ok (.norm, s)) (h - lo) lo s
    | .ok _ => .panic .stuck
    | .err e => .err e
    | .panic p => .panic p
    | .timeout => .timeout
  | .drain v x body, s => match s.env v with
    | .vec ns => drainLoop (exec C body) x ns.reverse { s with env := s.env.set v (.vec []) }
    | _ => .panic .stuck
  | .tryElse x f args h, s => do
    let vs ← evalAtoms s.env args
    match C.call f vs s.ps with
    | .ok (v, ps) => .ok (.norm, { ps := ps, env := s.env.set x v })
    | .err _ => exec C h s
    | .panic p => .panic p
    | .timeout => .timeout

/-- Calls in src/parser.rs. Parameters bound to arguments; all other variables are unset. -/
def bindParams : List Var → List Val → Env
  | x :: xs, v :: vs => (bindParams xs vs).set x v
  | _, _ => fun _ => .unit

/-- Calls in src/parser.rs. Run a function body: it must return a value. -/
def runBody (C : Ctx) (d : FunDef) (args : List Val) (ps : PS) : Out (Val × PS) :=
  match exec C d.body ⟨ps, bindParams d.params args⟩ with
  | .ok (.ret v, s) => .ok (v, s.ps)
  | .ok _ => .panic .stuck
  | .err e => .err e
  | .panic p => .panic p
  | .timeout => .timeout

/-- Calls in src/parser.rs. Calls with a bound `fuel` on the iterations of a loop and a bound `n` on the depth of
recursion. -/
def callN (U : Unicode) (defs : Fn → FunDef) (toks : List Token) (fuel : Nat) :
    Nat → Fn → List Val → PS → Out (Val × PS)
  | 0, _, _, _ => .timeout
  | n + 1, f, args, ps => runBody ⟨U, toks, fuel, callN U defs toks fuel n⟩ (defs f) args ps

end Interp
end Verif
