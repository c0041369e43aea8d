import Verif.Props.Schema
import Verif.Proofs.PrecTop
/-!
Operators are grouped by precedence (C22).  The tables of precedences and what it means for a node to be
grouped by precedence are in Spec/Precedence.lean.
-/
namespace Verif.Props
open Verif.Spec Verif.Core

/-- C22: every node of a returned tree groups its operands by precedence, operators of equal precedence to
the left: what starts a right operand binds strictly tighter, what ends a left operand at least as tight. -/
theorem C22_by_precedence (U : Unicode) (code : Str) (ns : List Node) (h : parse U code = .ok ns) (n : Node)
    (hn : n ∈ ns) (m : Node) (hm : m ∈ nodes n) : ByPrecedence U m :=
  PI.parse_good h n hn m hm

/-- C22: every binary operator is in the table of precedences. -/
theorem C22_operators_known (U : Unicode) (hU : U.Lawful) (code : Str) (ns : List Node)
    (h : parse U code = .ok ns) (n : Node) (hn : n ∈ ns) (m : Node) (hm : m ∈ nodes n)
    (ht : m.ty = .BinaryOperator) : ∃ q, opPrec U m = some q := by
  obtain ⟨t, h1, k, hk, hu⟩ := (C33_tokens U hU code ns h n hn m hm).2 _ (by rw [ht]; rfl)
  unfold opPrec
  rw [ht]
  dsimp only
  rw [h1]
  show ∃ q, rowOf infixTable (t.upper U) = some q
  rw [hu]
  revert k
  have : ∀ k ∈ (tokenOf .BinaryOperator).getD [], (rowOf infixTable k.lit).isSome = true := by decide +kernel
  intro k hk _
  exact Option.isSome_iff_exists.1 (this k hk)

/-- C22 for an operator that is the right operand of another one. -/
theorem C22_right_operand (U : Unicode) (code : Str) (ns : List Node) (h : parse U code = .ok ns) (n : Node)
    (hn : n ∈ ns) (m : Node) (hm : m ∈ nodes n) (r : Node) (hr : r ∈ childrenAt m .k_right)
    (ht : m.ty = .BinaryOperator) (q c : Nat) (hq : opPrec U m = some q) (hc : opPrec U r = some c) : c < q := by
  refine (C22_by_precedence U code ns h n hn m hm).right q (.inl hq) r ?_ r (.self (by rw [hc]; rfl)) c hc
  unfold rightOperands
  rw [ht]
  exact hr

/-- C22 for an operator that is the left operand of another one: it binds at least as tight, unless an
operand at its right end is followed by `ASC`, `DESC` or `NULLS`. -/
theorem C22_left_operand (U : Unicode) (code : Str) (ns : List Node) (h : parse U code = .ok ns) (n : Node)
    (hn : n ∈ ns) (m : Node) (hm : m ∈ nodes n) (l : Node) (hl : l ∈ childrenAt m .k_left)
    (ht : m.ty = .BinaryOperator) (q c : Nat) (hq : opPrec U m = some q)
    (hc : openPrec U l = some c) : c ≤ q ∨ ∃ a, OnRight U l a ∧ Ordered a := by
  have hl' : l ∈ leftOperand m := by
    unfold leftOperand
    rw [ht]
    exact hl
  rcases (C22_by_precedence U code ns h n hn m hm).left q hq l hl' with h | h
  · exact .inr h
  · exact .inl (h l (.self l) c hc)

/-- The binary operators of a tree with the precedences of the operators that are their operands. -/
def operators (U : Unicode) (code : Str) : List (Nat × List Nat × List Nat) :=
  match parse U code with
  | .ok ns => (ns.flatMap nodes).filterMap fun m => (opPrec U m).map fun q =>
      (q, (leftOperand m).filterMap (opPrec U), (rightOperands m).filterMap (opPrec U))
  | _ => []

/-- `1 + 2 * 3 - 4` is `(1 + (2 * 3)) - 4`. -/
example : operators Unicode.sample "SELECT 1 + 2 * 3 - 4".toList =
    [(104, [104], []), (104, [], [103]), (103, [], [])] := by decide +kernel

/-- `NOT a = b AND c BETWEEN d + e AND f OR g` -/
example : operators Unicode.sample "SELECT NOT a = b AND c BETWEEN d + e AND f OR g".toList =
    [(112, [111], []), (111, [], [109]), (109, [], []), (109, [], [104]), (104, [], [])] := by decide +kernel

/-- The exception in `ByPrecedence.left` is real: `a OR b ASC + c` is `(a OR b ASC) + c`. -/
example : operators Unicode.sample "SELECT a OR b ASC + c".toList = [(104, [112], []), (112, [], [])] := by
  decide +kernel

end Verif.Props
