import Verif.Model.Lib
/-!
What is known about the tokens ahead at the places where src/parser.rs makes an error message.  `ok` checks a
command: at every `fail` the facts collected on the way entail the claim of that place.
-/
namespace Verif.Blame
open Verif.Program

/-- Variables that hold binding strengths. -/
def precVars : List Var := [v_precedence, v_precedence_1]

/-- A fact: the token at an offset is (or is not) one of the words; the next token binds. -/
inductive Fact
  | tok (o : Off) (ks : List Kw) (b : Bool)
  | fin
  deriving DecidableEq

/-- What follows from the value of a condition. -/
def condFacts : Bool → Cond → List Fact
  | b, .up o ks => [.tok o ks b]
  | b, .not a => condFacts (!b) a
  | true, .and a b => condFacts true a ++ condFacts true b
  | false, .or a b => condFacts false a ++ condFacts false b
  | true, .precLt x => if x ∈ precVars then [.fin] else []
  | _, _ => []

/-- No function is called. -/
def isPure : Exp → Bool
  | .call .. => false
  | _ => true

/-- The fact does not depend on variables. -/
def Fact.isLit : Fact → Bool
  | .tok (.lit _) _ _ => true
  | .tok (.var ..) _ _ => false
  | .fin => true

/-- Facts after an assignment. -/
def afterAssign (F : List Fact) (e : Exp) : List Fact := if isPure e then F.filter Fact.isLit else []

/-- Words that bind. -/
def finWords : List Kw :=
  [.sym_lparen, .sym_lbrack, .sym_dot, .sym_star, .sym_slash, .sym_concat, .sym_plus, .sym_minus, .sym_shl,
   .sym_shr, .sym_amp, .sym_caret, .sym_bar, .sym_eq, .sym_lt, .sym_gt, .sym_le, .sym_ge, .sym_ne, .sym_ltgt,
   .LIKE, .BETWEEN, .IN, .IS, .AND, .OR, .sym_arrow, .NOT]

/-- Add what follows from the next token binding. -/
def saturate (F : List Fact) : List Fact :=
  if .fin ∈ F then
    .tok (.lit 1) finWords true ::
      ((if .tok (.lit 1) [.NOT] true ∈ F then [.tok (.lit 2) [.IN, .LIKE, .BETWEEN] true] else []) ++ F)
  else F

/-- A fact seen from the next token. -/
def shift1 : Fact → Option Fact
  | .tok (.lit (n + 1)) ks b => some (.tok (.lit n) ks b)
  | _ => none

/-- Facts after moving to the next token. -/
def shift (F : List Fact) : List Fact := (saturate F).filterMap shift1

/-- Commands that leave the state alone unless they return or fail. -/
def still : Cmd → Bool
  | .skip => true
  | .seq a b => still a && still b
  | .ite _ a b => still a && still b
  | .ret _ => true
  | .fail .. => true
  | _ => false

/-- A fact about a loop variable with value `i`. -/
def inst (x : Var) (i : Nat) : Fact → Option Fact
  | .tok (.var y k) ks b => if y = x then some (.tok (.lit (i + k)) ks b) else none
  | _ => none

/-- Facts after all iterations. -/
def insts (x : Var) (G : List Fact) (lo : Nat) : Nat → List Fact
  | 0 => []
  | n + 1 => G.filterMap (inst x lo) ++ insts x G (lo + 1) n

/-- Facts after a command ends normally; `none` when it never does. -/
def post (F : List Fact) : Cmd → Option (List Fact)
  | .skip => some F
  | .seq a b => match post F a with
    | some G => post G b
    | none => none
  | .next => some (shift F)
  | .set _ e => some (afterAssign F e)
  | .push _ _ e => some (afterAssign F e)
  | .pushVec _ _ e => some (afterAssign F e)
  | .append _ e => some (afterAssign F e)
  | .setType _ _ => some (F.filter Fact.isLit)
  | .ite c a b => match post (condFacts true c ++ F) a, post (condFacts false c ++ F) b with
    | some A, some B => some (A.filter fun f => B.contains f)
    | some A, none => some A
    | none, r => r
  | .brk => none
  | .ret _ => none
  | .fail .. => none
  | .scan x lo (some (.nat hi)) a =>
    if still a then match post [] a with
      | some G => some (insts x G lo (hi - lo) ++ F.filter Fact.isLit)
      | none => some []
    else some []
  | _ => some []

/-- The value of the expression is no number above the maximum. -/
def goodExp : Exp → Bool
  | .prec _ => true
  | .natLit n => n ≤ usizeMax
  | _ => false

/-- The argument is no number above the maximum. -/
def goodAtom : Atom → Bool
  | .nat n => n ≤ usizeMax
  | .var x => precVars.contains x
  | _ => false

/-- Arguments for parameters that are binding strengths. -/
def argsOk : List Var → List Atom → Bool
  | x :: xs, a :: as => (!precVars.contains x || goodAtom a) && argsOk xs as
  | _, _ => true

/-- Arguments of calls in an expression. -/
def expOk : Exp → Bool
  | .call f args => argsOk (Program.defs f).params args
  | _ => true

/-- The facts entail a fact. -/
def entails (F : List Fact) : Fact → Bool
  | .tok o ks false => !ks.isEmpty && ks.all fun k => F.any fun
    | .tok o' ks' b => o == o' && !b && ks'.contains k
    | .fin => false
  | .tok o ks true => F.any fun
    | .tok o' ks' b => o == o' && b && ks'.all fun k => ks.contains k
    | .fin => false
  | .fin => F.contains .fin

/-- The facts contradict each other. -/
def contradictory (F : List Fact) : Bool := F.any fun
  | .tok o ks true => entails F (.tok o ks false)
  | _ => false

/-- What is claimed at a place: it is never reached, or the error points at the token at an offset and some facts
hold. -/
inductive Claim
  | never
  | facts (off : Nat) (l : List Fact)

/-- Claims by line of src/parser.rs; the others are never reached. -/
def claims : List (Nat × Claim) := [
  (312, .facts 0 [.tok (.lit 0) [.sym_rparen] false]),
  (1141, .facts 0 (.tok (.lit 0) [.CREATE] true :: ([1, 2, 3, 4, 5].map fun i =>
      .tok (.lit i) [.SCHEMA, .TABLE, .VIEW, .FUNCTION, .PROCEDURE, .ROW, .CAPACITY, .RESERVATION, .ASSIGNMENT,
        .SEARCH, .VECTOR, .MODEL] false))),
  (1172, .facts 0 (.tok (.lit 0) [.ALTER] true :: ([1, 2, 3, 4, 5].map fun i =>
      .tok (.lit i) [.SCHEMA, .TABLE, .COLUMN, .VIEW, .VECTOR, .ORGANIZATION, .PROJECT, .BI_CAPACITY, .CAPACITY,
        .RESERVATION, .MODEL] false))),
  (2021, .facts 0 [.tok (.lit 0) [.sym_rparen] false]),
  (2294, .facts 0 [.tok (.lit 0) [.SELECT, .EXTEND, .SET, .DROP, .RENAME, .AS, .WHERE, .CALL, .ORDER, .LIMIT, .AGGREGATE,
      .UNION, .INTERSECT, .EXCEPT, .JOIN, .INNER, .FULL, .LEFT, .RIGHT, .CROSS, .OUTER, .TABLESAMPLE, .PIVOT,
      .UNPIVOT, .WITH, .MATCH_RECOGNIZE, .DISTINCT] false]),
  (2695, .facts 0 [.tok (.lit 0) [.DELETE, .UPDATE, .INSERT] false]),
  (3380, .facts 0 [.tok (.lit 0) [.SET, .ADD, .DROP] false]),
  (3554, .facts 1 [.tok (.lit 1) [.SET, .ADD, .RENAME, .DROP, .ALTER] false]),
  (3610, .facts 0 [.tok (.lit 0) [.SET, .DROP] false]),
  (4108, .facts 0 [])]

/-- The claim at a line of src/parser.rs. -/
def claim (line : Nat) : Claim := (claims.lookup line).getD .never

/-- The claim of a `fail` follows from the facts. -/
def failOk (F : List Fact) (o : Off) (n : Nat) : Bool :=
  match claim n with
  | .never => contradictory (saturate F)
  | .facts k l => o == .lit k && l.all (entails F)

/-- Every `fail` in a command is justified. -/
def ok (F : List Fact) : Cmd → Bool
  | .seq a b => ok F a && match post F a with
    | some G => ok G b
    | none => true
  | .set x e => expOk e && (!precVars.contains x || goodExp e)
  | .push _ _ e => expOk e
  | .pushVec _ _ e => expOk e
  | .append _ e => expOk e
  | .ite c a b => ok (condFacts true c ++ F) a && ok (condFacts false c ++ F) b
  | .loop a => ok [] a
  | .ret e => expOk e
  | .fail o n => failOk F o n
  | .scan x _ _ a => !precVars.contains x && ok [] a
  | .drain _ _ a => ok [] a
  | .tryElse x f args h => !precVars.contains x && argsOk (Program.defs f).params args && ok [] h
  | _ => true

theorem all_ok : ∀ f ∈ Fn.all, ok [] (Program.defs f).body = true := by decide +kernel

end Verif.Blame
