import Verif.Model.Lib
/-!
How much work the parser does: the number of calls of its `parse_*` functions and of `next_token`
while it parses.  The functions of this file follow the interpreter (`Model/Interp.lean`) and add up
the calls; what is executed is given by the interpreter itself.  Looking at tokens (`get_token`,
`is_eof`), constructing nodes and assigning variables are not counted.
-/
namespace Verif
namespace Interp
open Core

/-- Expressions in src/parser.rs, such as 393, 409. Calls made while evaluating a right-hand side; `w` counts those made by a call. -/
def expWork (w : Fn → List Val → PS → Nat) (s : St) : Exp → Nat
  | .call f args => match evalAtoms s.env args with
    | .ok vs => w f vs s.ps
    | _ => 0
  | _ => 0

/-- `loop` and `while` in src/parser.rs, such as 943. Calls made by at most `n` iterations of a loop; `g` counts those of one iteration, `f` is its effect. -/
def iterateWork (g : St → Nat) (f : St → Out (Flow × St)) : Nat → St → Nat
  | 0, _ => 0
  | n + 1, s => g s + match f s with
    | .ok (.norm, s') => iterateWork g f n s'
    | _ => 0

/-- `for` in src/parser.rs, such as 1047. Calls made by `for x in i..i+n`. -/
def scanWork (g : St → Nat) (f : St → Out (Flow × St)) (x : Var) : (n i : Nat) → St → Nat
  | 0, _, _ => 0
  | n + 1, i, s =>
    g { s with env := s.env.set x (.nat i) } + match f { s with env := s.env.set x (.nat i) } with
      | .ok (.norm, s') => scanWork g f x n (i + 1) s'
      | _ => 0

/-- `while let` in src/parser.rs 2330. Calls made by `while let Some(x) = v.pop()`. -/
def drainWork (g : St → Nat) (f : St → Out (Flow × St)) (x : Var) : List Node → St → Nat
  | [], _ => 0
  | n :: ns, s =>
    g { s with env := s.env.set x (.node n) } + match f { s with env := s.env.set x (.node n) } with
      | .ok (.norm, s') => drainWork g f x ns s'
      | _ => 0

/-- Statements in src/parser.rs. Calls made by a command. -/
def work (C : Ctx) (w : Fn → List Val → PS → Nat) : Cmd → St → Nat
  | .skip, _ => 0
  | .seq a b, s => work C w a s + match exec C a s with
    | .ok (.norm, s') => work C w b s'
    | _ => 0
  | .next, _ => 1
  | .set _ e, s => expWork w s e
  | .push _ _ e, s => expWork w s e
  | .pushVec _ _ e, s => expWork w s e
  | .append _ e, s => expWork w s e
  | .setType .., _ => 0
  | .ite c a b, s => match evalCond C s c with
    | .ok true => work C w a s
    | .ok false => work C w b s
    | _ => 0
  | .loop a, s => iterateWork (work C w a) (exec C a) C.fuel s
  | .brk, _ => 0
  | .ret e, s => expWork w s e
  | .fail .., _ => 0
  | .scan x lo none body, s => scanWork (work C w body) (exec C body) x C.fuel lo s
  | .scan x lo (some hi) body, s => match evalAtom s.env hi with
    | .ok (.nat h) => scanWork (work C w body) (exec C body) x (h - lo) lo s
    | _ => 0
  | .drain v x body, s => match s.env v with
    | .vec ns => drainWork (work C w body) (exec C body) x ns.reverse { s with env := s.env.set v (.vec []) }
    | _ => 0
  | .tryElse _ f args h, s => match evalAtoms s.env args with
    | .ok vs => w f vs s.ps + match C.call f vs s.ps with
      | .err _ => work C w h s
      | _ => 0
    | _ => 0

/-- Calls in src/parser.rs. Calls made by a call, itself included. -/
def workN (U : Unicode) (defs : Fn → FunDef) (toks : List Token) (fuel : Nat) :
    Nat → Fn → List Val → PS → Nat
  | 0, _, _, _ => 0
  | n + 1, f, args, ps =>
    1 + work ⟨U, toks, fuel, callN U defs toks fuel n⟩ (workN U defs toks fuel n) (defs f).body
      ⟨ps, bindParams (defs f).params args⟩

end Interp

open Core Interp

/-- A call of a `parse_*` function of src/parser.rs: the number of calls it makes, itself included. -/
def callWork (U : Unicode) (toks : List Token) (fuel depth : Nat) : Fn → List Val → PS → Nat :=
  workN U Program.defs toks fuel depth

/-- src/parser.rs 42-51: calls made by the loop of `parse_code`. -/
def parseLoopWork (U : Unicode) (toks : List Token) (fuel depth : Nat) : Nat → PS → Nat
  | 0, _ => 0
  | n + 1, ps =>
    if isEof toks ps 0 then 0
    else callWork U toks fuel depth .parse_statement [.bool true] ps +
      match call U toks fuel depth .parse_statement [.bool true] ps with
      | .ok (_, ps') => 1 + match nextToken toks ps' with
        | .ok ps'' => parseLoopWork U toks fuel depth n ps''
        | _ => 0
      | _ => 0

/-- src/parser.rs 19-52: calls made by `Parser::new(tokens).parse_code()`. -/
def parseWork (U : Unicode) (toks : List Token) : Nat :=
  match Core.new toks with
  | .ok ps => parseLoopWork U toks (toks.length + 1) (4 * toks.length) (toks.length + 1) ps
  | _ => 0

end Verif
