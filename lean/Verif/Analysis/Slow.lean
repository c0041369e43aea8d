import Verif.Model.Lib
/-!
An evaluator for the parser on a text with a gap.  The tokens before and after the gap are known, the gap is a query of
unknown length that stands between parentheses.  Of the nodes only the types are known.  The evaluator counts how
often the query in the gap is parsed; it is stuck where the outcome would depend on something unknown.
-/
namespace Verif.Slow
open Core

/-- What is known of a value. -/
inductive AVal
  | unit
  | node (ty : NodeType)
  | vec (tys : List NodeType)
  | bool (b : Bool)
  | nat (n : Nat)
  | str (s : Str)
  | kws (ks : List Kw)

/-- Outcomes, with the number of times the gap was parsed. -/
inductive Ans (α : Type)
  | ok (k : Nat) (a : α)
  | err (k : Nat)
  | stuck

/-- Sequencing. -/
def Ans.bind {α β : Type} : Ans α → (α → Ans β) → Ans β
  | .ok k a, f => match f a with
    | .ok j b => .ok (k + j) b
    | .err j => .err (k + j)
    | .stuck => .stuck
  | .err k, _ => .err k
  | .stuck, _ => .stuck

/-- Known or stuck. -/
def Ans.of {α : Type} : Option α → Ans α
  | some a => .ok 0 a
  | none => .stuck

/-- Local variables. -/
abbrev AEnv := Var → AVal

/-- `x = v`. -/
def AEnv.set (env : AEnv) (x : Var) (v : AVal) : AEnv := fun y => if y = x then v else env y

/-- Position in the list of known tokens, and variables. -/
structure ASt where
  pos : Nat
  env : AEnv

/-- How a command ends. -/
inductive AFlow
  | norm
  | brk
  | ret (v : AVal)

/-- The known tokens.  The gap begins with the token at `gap` and ends with the next one; `query` is the type of its
node. -/
structure Window where
  lits : List Str
  gap : Nat
  query : NodeType
  deriving Inhabited

/-- A token with this literal. -/
def tk (l : Str) : Token := ⟨0, 0, l⟩

/-- The token `k` places after position `i`, if it is known. -/
def Window.get (w : Window) (i k : Nat) : Option Token :=
  if i ≤ w.gap ∧ w.gap < i + k ∨ i + k = w.gap + 1 then none else (w.lits[i + k]?).map tk

/-- The Unicode tables: only literals that are in upper case are used. -/
abbrev U0 : Unicode := Unicode.sample

/-- `evalOff`. -/
def aoff (env : AEnv) : Off → Option Nat
  | .lit n => some n
  | .var x k => match env x with
    | .nat n => some (n + k)
    | _ => none

/-- `offTok`. -/
def atok (w : Window) (s : ASt) (o : Off) : Option Token := (aoff s.env o).bind (w.get s.pos)

/-- `evalAtom`. -/
def aatom (env : AEnv) : Atom → Option AVal
  | .var x => some (env x)
  | .bool b => some (.bool b)
  | .nat n => some (.nat n)
  | .notVar x => match env x with
    | .bool b => some (.bool (!b))
    | _ => none
  | .kws ks => some (.kws ks)
  | .strEq x k => match env x with
    | .str s => some (.bool (s == k.lit))
    | _ => none

/-- `evalAtoms`. -/
def aatoms (env : AEnv) : List Atom → Option (List AVal)
  | [] => some []
  | a :: as => (aatom env a).bind fun v => (aatoms env as).map (v :: ·)

/-- `getPrecedence`; stuck at `NOT`. -/
def aprec (w : Window) (i k : Nat) : Option Nat :=
  (w.get i k).bind fun t => if t.inKws U0 [.NOT] then none else some (precTable U0 t)

/-- `evalCond`. -/
def acond (w : Window) (s : ASt) : Cond → Option Bool
  | .up o ks => (atok w s o).map fun t => t.inKws U0 ks
  | .raw o ks => (atok w s o).map fun t => ks.any fun k => t.literal == k.lit
  | .upVar o x => (atok w s o).bind fun t => match s.env x with
    | .kws ks => some (t.inKws U0 ks)
    | _ => none
  | .isIdent o => (atok w s o).map fun t => t.isIdentifier U0
  | .isStr o => (atok w s o).map fun t => t.isString
  | .isNum o => (atok w s o).map fun t => t.isNumeric
  | .eof o => (atok w s o).map fun _ => false
  | .hasTok o => (atok w s o).map fun _ => true
  | .bvar x => match s.env x with
    | .bool b => some b
    | _ => none
  | .const b => some b
  | .precLt x => (aprec w s.pos 1).bind fun p => match s.env x with
    | .nat n => some (decide (p < n))
    | _ => none
  | .lenPos x => match s.env x with
    | .vec ns => some (decide (0 < ns.length))
    | _ => none
  | .lenOne x => match s.env x with
    | .vec ns => some (ns.length == 1)
    | _ => none
  | .strIs x k => match s.env x with
    | .str v => some (v == k.lit)
    | _ => none
  | .typeIs x nt => match s.env x with
    | .node ty => some (ty == nt)
    | _ => none
  | .leftmostIs x nt => match s.env x with
    | .node ty => if ty = .DotOperator then none else some (ty == nt)
    | _ => none
  | .hasAnyKey _ _ => none
  | .firstCharIs c => (w.get s.pos 0).bind fun t => t.literal.head?.map (· == c)
  | .lastCharIs c => (w.get s.pos 0).bind fun t => t.literal.getLast?.map (· == c)
  | .adjacent => none
  | .and a b => (acond w s a).bind fun x => if x then acond w s b else some false
  | .or a b => (acond w s a).bind fun x => if x then some true else acond w s b
  | .not a => (acond w s a).map (!·)

/-- `classify`. -/
def aclassify (w : Window) (i : Nat) (t : Token) : Option NodeType :=
  if t.isIdentifier U0 then some .Identifier
  else if t.isNumeric then some .NumericLiteral
  else if t.isString then some .StringLiteral
  else if t.isBoolean U0 then some .BooleanLiteral
  else if t.isParameter then some .Parameter
  else if t.isTemplate then some .Template
  else if t.upper U0 = Kw.lit .NULL then some .NullLiteral
  else (w.get i 1).map fun t1 =>
    if t1.literal = Kw.lit .sym_lparen ∨ t1.literal = Kw.lit .sym_dot then .Identifier else .Unknown

/-- `construct`: the type of the node. -/
def aconstruct (w : Window) (i : Nat) (nt : NodeType) : Option NodeType :=
  (w.get i 0).bind fun t => if nt = .EOF then some .EOF else if nt = .Unknown then aclassify w i t else some nt

/-- The meaning of calls. -/
abbrev ACall := Fn → List AVal → Nat → Ans (AVal × Nat)

/-- `evalExp`. -/
def aexp (w : Window) (call : ACall) (s : ASt) : Exp → Ans (AVal × ASt)
  | .var x => .ok 0 (s.env x, s)
  | .construct nt => .of ((aconstruct w s.pos nt).map fun ty => (.node ty, s))
  | .empty nt => .ok 0 (.node nt, s)
  | .call f args => (Ans.of (aatoms s.env args)).bind fun vs => (call f vs s.pos).bind fun r =>
    .ok 0 (r.1, { s with pos := r.2 })
  | .nilVec => .ok 0 (.vec [], s)
  | .pop _ => .stuck
  | .prec o => .of (((aoff s.env o).bind (aprec w s.pos)).map fun p => (.nat p, s))
  | .natLit n => .ok 0 (.nat n, s)
  | .boolLit b => .ok 0 (.bool b, s)
  | .kws ks => .ok 0 (.kws ks, s)
  | .upperLit o => .of ((atok w s o).map fun t => (.str (t.upper U0), s))
  | .cond c => .of ((acond w s c).map fun b => (.bool b, s))

/-- `iterate`. -/
def aiterate (f : ASt → Ans (AFlow × ASt)) : Nat → ASt → Ans (AFlow × ASt)
  | 0, _ => .stuck
  | n + 1, s => (f s).bind fun r => match r.1 with
    | .norm => aiterate f n r.2
    | .brk => .ok 0 (.norm, r.2)
    | .ret v => .ok 0 (.ret v, r.2)

/-- `scanLoop`. -/
def ascan (f : ASt → Ans (AFlow × ASt)) (x : Var) (done : ASt → Ans (AFlow × ASt)) :
    (n i : Nat) → ASt → Ans (AFlow × ASt)
  | 0, _, s => done s
  | n + 1, i, s => (f { s with env := s.env.set x (.nat i) }).bind fun r => match r.1 with
    | .norm => ascan f x done n (i + 1) r.2
    | .brk => .ok 0 (.norm, r.2)
    | .ret v => .ok 0 (.ret v, r.2)

/-- The number of iterations of a loop that are tried. -/
def rounds : Nat := 8

/-- `nextToken`. -/
def anext (w : Window) (i : Nat) : Option Nat := (w.get i 1).map fun _ => i + 1

/-- `exec`. -/
def aexec (w : Window) (call : ACall) : Cmd → ASt → Ans (AFlow × ASt)
  | .skip, s => .ok 0 (.norm, s)
  | .seq a b, s => (aexec w call a s).bind fun r => match r.1 with
    | .norm => aexec w call b r.2
    | f => .ok 0 (f, r.2)
  | .next, s => .of ((anext w s.pos).map fun i => (.norm, { s with pos := i }))
  | .set x e, s => (aexp w call s e).bind fun r => .ok 0 (.norm, { r.2 with env := r.2.env.set x r.1 })
  | .push x _ e, s => (aexp w call s e).bind fun r => match r.2.env x, r.1 with
    | .node _, .node _ => .ok 0 (.norm, r.2)
    | _, _ => .stuck
  | .pushVec x _ e, s => (aexp w call s e).bind fun r => match r.2.env x, r.1 with
    | .node _, .vec _ => .ok 0 (.norm, r.2)
    | _, _ => .stuck
  | .append x e, s => (aexp w call s e).bind fun r => match r.2.env x, r.1 with
    | .vec ns, .node c => .ok 0 (.norm, { r.2 with env := r.2.env.set x (.vec (ns ++ [c])) })
    | _, _ => .stuck
  | .setType x nt, s => match s.env x with
    | .node _ => .ok 0 (.norm, { s with env := s.env.set x (.node nt) })
    | _ => .stuck
  | .ite c a b, s => match acond w s c with
    | some true => aexec w call a s
    | some false => aexec w call b s
    | none => .stuck
  | .loop a, s => aiterate (aexec w call a) rounds s
  | .brk, s => .ok 0 (.brk, s)
  | .ret e, s => (aexp w call s e).bind fun r => .ok 0 (.ret r.1, r.2)
  | .fail o _, s => (Ans.of (atok w s o)).bind fun _ => .err 0
  | .scan x lo none body, s => ascan (aexec w call body) x (fun _ => .stuck) rounds lo s
  | .scan x lo (some hi) body, s => match aatom s.env hi with
    | some (.nat h) => ascan (aexec w call body) x (fun s => .ok 0 (.norm, s)) (h - lo) lo s
    | _ => .stuck
  | .drain .., _ => .stuck
  | .tryElse x f args h, s => (Ans.of (aatoms s.env args)).bind fun vs => match call f vs s.pos with
    | .ok k r => .ok k (.norm, { pos := r.2, env := s.env.set x r.1 })
    | .err k => match aexec w call h s with
      | .ok j r => .ok (k + j) r
      | .err j => .err (k + j)
      | .stuck => .stuck
    | .stuck => .stuck

/-- Parameters bound to arguments. -/
def abind : List Var → List AVal → AEnv
  | x :: xs, v :: vs => (abind xs vs).set x v
  | _, _ => fun _ => .unit

/-- Is this the call that parses the query in the gap? -/
def isGap (w : Window) (f : Fn) (args : List AVal) (i : Nat) : Bool :=
  f == .parse_select_statement && i == w.gap && decide (w.gap < w.lits.length) && match args with
    | [.bool false, .bool true] => true
    | _ => false

/-- `callN`. -/
def acall (w : Window) : Nat → ACall
  | 0 => fun _ _ _ => .stuck
  | n + 1 => fun f args i =>
    if isGap w f args i then .ok 1 (.node w.query, i + 1)
    else (aexec w (acall w n) (Program.defs f).body ⟨i, abind (Program.defs f).params args⟩).bind fun r => match r.1 with
      | .ret v => .ok 0 (v, r.2.pos)
      | _ => .stuck

end Verif.Slow
