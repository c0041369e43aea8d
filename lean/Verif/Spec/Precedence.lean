import Verif.Spec.Tree
import Verif.Model.Token
/-!
Operator precedence as a property of finished trees.  Smaller numbers bind tighter, as in the comment of
src/parser.rs 102-116 and in the documentation of GoogleSQL.
-/
namespace Verif.Spec

/-- Binary operators by precedence. -/
def infixTable : List (Nat × List Kw) := [
  (103, [.sym_star, .sym_slash, .sym_concat]),
  (104, [.sym_plus, .sym_minus]),
  (105, [.sym_shl, .sym_shr]),
  (106, [.sym_amp]),
  (107, [.sym_caret]),
  (108, [.sym_bar]),
  (109, [.sym_eq, .sym_lt, .sym_gt, .sym_le, .sym_ge, .sym_ne, .sym_ltgt, .LIKE, .IS]),
  (111, [.AND]),
  (112, [.OR]),
  (200, [.sym_arrow])]

/-- Prefix operators by precedence. -/
def prefixTable : List (Nat × List Kw) := [
  (102, [.sym_minus, .sym_plus, .sym_tilde]),
  (110, [.NOT])]

/-- The row of a table a text (in upper case) belongs to. -/
def rowOf (table : List (Nat × List Kw)) (s : Str) : Option Nat :=
  (table.find? fun e => e.2.any fun k => s == k.lit).map Prod.fst

/-- The precedence of a node that has a left operand: field access and chained calls (102), subscripts and
calls (101), `BETWEEN`, `IN`, `IS DISTINCT FROM` (109), and the binary operators.  `none`: other nodes. -/
def opPrec (U : Unicode) (n : Node) : Option Nat :=
  match n.ty with
  | .CallingFunction | .AccessOperator => some 101
  | .DotOperator | .FunctionChain => some 102
  | .BetweenOperator | .InOperator | .IsDistinctFromOperator => some 109
  | .BinaryOperator => n.tok.bind fun t => rowOf infixTable (t.upper U)
  | _ => none

/-- The precedence of a prefix operator. -/
def prefixPrec (U : Unicode) (n : Node) : Option Nat :=
  match n.ty with
  | .UnaryOperator => n.tok.bind fun t => rowOf prefixTable (t.upper U)
  | _ => none

/-- The left operand of a node with `opPrec`. -/
def leftOperand (n : Node) : List Node :=
  childrenAt n (match n.ty with | .CallingFunction => .k_func | _ => .k_left)

/-- The operands to the right of the operator that are not enclosed in brackets. -/
def rightOperands (n : Node) : List Node :=
  match n.ty with
  | .BinaryOperator | .IsDistinctFromOperator | .InOperator | .UnaryOperator => childrenAt n .k_right
  | .BetweenOperator => childrenAt n .k_right_min ++ childrenAt n .k_right_max
  | _ => []

/-- The last operand, with which the text of the node ends.  (`IN` ends with a closing bracket.) -/
def lastOperand (U : Unicode) (n : Node) : List Node :=
  match n.ty with
  | .BinaryOperator | .IsDistinctFromOperator => childrenAt n .k_right
  | .UnaryOperator => if (prefixPrec U n).isSome then childrenAt n .k_right else []
  | .BetweenOperator => childrenAt n .k_right_max
  | _ => []

/-- The precedence of a node that ends with an operand. -/
def openPrec (U : Unicode) (n : Node) : Option Nat :=
  match n.ty with
  | .BinaryOperator | .IsDistinctFromOperator | .BetweenOperator => opPrec U n
  | .UnaryOperator => prefixPrec U n
  | _ => none

/-- `OnLeft U n a`: `a` is an operator reached from `n` through left operands. -/
inductive OnLeft (U : Unicode) : Node → Node → Prop
  | self {n : Node} (h : (opPrec U n).isSome) : OnLeft U n n
  | step {n c a : Node} (h : (opPrec U n).isSome) (hc : c ∈ leftOperand n) (ha : OnLeft U c a) : OnLeft U n a

/-- `OnRight U n a`: `a` is reached from `n` through last operands. -/
inductive OnRight (U : Unicode) : Node → Node → Prop
  | self (n : Node) : OnRight U n n
  | step {n c a : Node} (hc : c ∈ lastOperand U n) (ha : OnRight U c a) : OnRight U n a

/-- The operand is followed by `ASC`, `DESC` or `NULLS FIRST`/`LAST`. -/
def Ordered (n : Node) : Prop := childrenAt n .k_order ≠ [] ∨ childrenAt n .k_null_order ≠ []

/-- The node groups its operands by precedence, operators of equal precedence to the left. -/
structure ByPrecedence (U : Unicode) (n : Node) : Prop where
  /-- what starts a right operand binds tighter -/
  right : ∀ q, opPrec U n = some q ∨ prefixPrec U n = some q →
    ∀ r ∈ rightOperands n, ∀ a, OnLeft U r a → ∀ c, opPrec U a = some c → c < q
  /-- what ends the left operand binds at least as tight, unless there is an `ASC` etc. in between -/
  left : ∀ q, opPrec U n = some q →
    ∀ l ∈ leftOperand n, (∃ a, OnRight U l a ∧ Ordered a) ∨
      ∀ a, OnRight U l a → ∀ c, openPrec U a = some c → c ≤ q

end Verif.Spec
