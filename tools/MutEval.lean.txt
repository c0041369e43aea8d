import Verif.Analysis.CheckFn
import Verif.Analysis.OrderFn
import Verif.Analysis.AcceptTable
import Verif.Proofs.PrecTop
import Verif.Proofs.Terminate
import Verif.Proofs.Strip
import Verif.Proofs.Reloc
import Verif.Analysis.Blame
/-! Mutation testing of Verif.Model.Program: every function body is edited in many ways, and the computations on
which the theorems rest are repeated with the edited body.  usage: `MutEval FIRST STEP` takes the functions
FIRST, FIRST+STEP, ...; one line per mutant. -/
open Verif

def short {α : Type} [Repr α] (a : α) (n : Nat) : String := ((toString (repr a)).drop n).toString
def kn (k : Key) : String := short k 10
def tn (t : NodeType) : String := ((toString (repr t)).splitOn ".").getLast!
def kwn (k : Kw) : String := String.ofList k.lit
def fnn (f : Fn) : String := ((toString (repr f)).splitOn ".").getLast!
def kname (k : Key) : String := ((toString (repr k)).splitOn ".").getLast!

def nextIn {α : Type} [BEq α] [Inhabited α] (l : List α) (a : α) : α :=
  match l.dropWhile (fun x => !(x == a)) with
  | _ :: b :: _ => b
  | _ => l.head!

instance : BEq NodeType := ⟨fun a b => a.ctorIdx == b.ctorIdx⟩
instance : BEq Key := ⟨fun a b => a.ctorIdx == b.ctorIdx⟩

def dropEach {α : Type} : List α → List (α × List α)
  | [] => []
  | a :: l => (a, l) :: (dropEach l).map fun (b, r) => (b, a :: r)

abbrev M (α : Type) := List (String × α)
def lift {α β : Type} (f : α → β) (l : M α) : M β := l.map fun (s, a) => (s, f a)

def mOff : Off → M Off
  | .lit n => [(s!"offset {n} becomes {n+1}", .lit (n + 1))]
  | .var x k => [(s!"offset +{k} becomes +{k+1}", .var x (k + 1))]

def mCond : Cond → M Cond
  | .up o ks => (if ks.length > 1 then (dropEach ks).map fun (k, r) => (s!"{kwn k} is not tested", .up o r) else [])
      ++ lift (fun o => .up o ks) (mOff o)
  | .raw o ks => (if ks.length > 1 then (dropEach ks).map fun (k, r) => (s!"{kwn k} is not tested", .raw o r) else [])
      ++ lift (fun o => .raw o ks) (mOff o)
  | .upVar o x => lift (fun o => .upVar o x) (mOff o)
  | .and a b => [("second part of a conjunction dropped", a), ("first part of a conjunction dropped", b)]
      ++ lift (fun a => .and a b) (mCond a) ++ lift (fun b => .and a b) (mCond b)
  | .or a b => [("second part of a disjunction dropped", a), ("first part of a disjunction dropped", b)]
      ++ lift (fun a => .or a b) (mCond a) ++ lift (fun b => .or a b) (mCond b)
  | .not a => lift .not (mCond a)
  | _ => []

def mAtoms : List Atom → M (List Atom)
  | [] => []
  | .bool b :: l => (s!"argument {b} becomes {!b}", .bool (!b) :: l) :: lift (fun r => .bool b :: r) (mAtoms l)
  | .nat n :: l => (if n == usizeMax then [(s!"precedence bound becomes 101", .nat 101 :: l)] else
      [(s!"argument {n} becomes {n+1}", .nat (n+1) :: l), (s!"argument {n} becomes {n-1}", .nat (n-1) :: l)])
      ++ lift (fun r => .nat n :: r) (mAtoms l)
  | .kws ks :: l => ((dropEach ks).map fun (k, r) => (s!"{kwn k} is not in the argument", .kws r :: l))
      ++ lift (fun r => .kws ks :: r) (mAtoms l)
  | a :: l => lift (fun r => a :: r) (mAtoms l)

def mExp : Exp → M Exp
  | .construct t => let t' := nextIn NodeType.all t; [(s!"node type {tn t} becomes {tn t'}", .construct t')]
  | .empty t => let t' := nextIn NodeType.all t; [(s!"node type {tn t} becomes {tn t'}", .empty t')]
  | .call f args => lift (.call f) (mAtoms args) |>.map fun (s, e) => (s!"call of {fnn f}: {s}", e)
  | .kws ks => (dropEach ks).map fun (k, r) => (s!"{kwn k} is not in a list", .kws r)
  | .boolLit b => [(s!"{b} becomes {!b}", .boolLit !b)]
  | .natLit n => [(s!"{n} becomes {n+1}", .natLit (n + 1))]
  | .cond c => lift .cond (mCond c)
  | _ => []

def tmpVar : Var := 100000

def mCmd : Cmd → M Cmd
  | .skip => []
  | .seq a b => lift (fun a => .seq a b) (mCmd a) ++ lift (fun b => .seq a b) (mCmd b)
  | .next => [("a next_token dropped", .skip), ("a token skipped", .seq .next .next)]
  | .set x e => lift (.set x) (mExp e)
  | .push x k e =>
      let k' := nextIn Key.all k
      [(s!"{kname k} child dropped", .set tmpVar e), (s!"key {kname k} becomes {kname k'}", .push x k' e)] ++ lift (.push x k) (mExp e)
  | .pushVec x k e =>
      let k' := nextIn Key.all k
      [(s!"{kname k} children dropped", .set tmpVar e), (s!"key {kname k} becomes {kname k'}", .pushVec x k' e)] ++ lift (.pushVec x k) (mExp e)
  | .append x e => ("an element of an array dropped", .set tmpVar e) :: lift (.append x) (mExp e)
  | .setType x t => let t' := nextIn NodeType.all t
      [(s!"node type {tn t} not set", .skip), (s!"node type set to {tn t'} instead of {tn t}", .setType x t')]
  | .ite c a b =>
      [("a condition negated", .ite (.not c) a b), ("a condition always true", a), ("a condition always false", b)]
      ++ lift (fun c => .ite c a b) (mCond c) ++ lift (fun a => .ite c a b) (mCmd a) ++ lift (fun b => .ite c a b) (mCmd b)
  | .loop a => lift .loop (mCmd a)
  | .brk => []
  | .ret e => lift .ret (mExp e)
  | .fail o l => [(s!"error of line {l} not reported", .skip), (s!"message of line {l} replaced", .fail o 312)]
      ++ lift (fun o => .fail o l) (mOff o)
  | .scan x lo hi b => [(s!"scan from {lo+1}", .scan x (lo+1) hi b)] ++ (match hi with
      | some (.nat n) => [(s!"scan to {n-1}", .scan x lo (some (.nat (n-1))) b)]
      | _ => []) ++ lift (.scan x lo hi) (mCmd b)
  | .drain v x b => lift (.drain v x) (mCmd b)
  | .tryElse x f args h => lift (fun args => .tryElse x f args h) (mAtoms args) ++ lift (.tryElse x f args) (mCmd h)

def checks (f : Fn) (d : FunDef) : List (String × Bool) :=
  let defs : Fn → FunDef := fun g => if g.ctorIdx == f.ctorIdx then d else Program.defs g
  [("progressOk_all", progressOk defs f),
   ("okBy_noComments", d.body.okBy .noComments),
   ("okBy_sym", d.body.okBy .sym),
   ("Blame.all_ok", Blame.ok [] d.body),
   ("PI.all_checked", PI.checkFun PI.summary defs f),
   ("OI.all_checked", (OI.Table.table f).all (OI.checkEntry OI.rules OI.Table.table d)),
   ("AI.all_checked", (AI.Table.table f).all (AI.checkEntry AI.Table.table defs f)),
   ("GI.check_all", (GI.acceptTab f).all (GI.checkEntry GI.tables GI.acceptTab d))]

def main (argv : List String) : IO Unit := do
  let first := (argv[0]!).toNat!
  let step := (argv[1]!).toNat!
  let only := argv[2]?
  let mut i := 0
  for f in Fn.all do
    if i % step == first && (only.isNone || only == some (fnn f)) then
      let d := Program.defs f
      let bad0 := (checks f d).filter (fun x => !x.2)
      if !bad0.isEmpty then (← IO.getStdout).putStr (s!"BASE {fnn f} {" ".intercalate (bad0.map (·.1))}" ++ "\n")
      let mut k := 0
      for (s, b) in mCmd d.body do
        k := k + 1
        let r := (checks f ⟨d.params, b⟩).filter (fun x => !x.2)
        (← IO.getStdout).putStr (s!"{fnn f}\t{k}\t{s}\t{" ".intercalate (r.map (·.1))}" ++ "\n")
        (← IO.getStdout).flush
    i := i + 1
