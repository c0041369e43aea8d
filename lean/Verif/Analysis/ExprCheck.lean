import Verif.Analysis.Sym
import Verif.Spec.Expr
/-! The shapes of Spec/Expr.lean are what the symbolic evaluator finds in `parse_expr` and `parse_exprs`. -/
namespace Verif.Sym
open Spec

/-- The word at an item. -/
def baseOf (l : Str) : List Item → Base
  | .tok l' :: _ => if l = "NOT".toList ∧ (l' = "IN".toList ∨ l' = "LIKE".toList ∨ l' = "BETWEEN".toList) then .notOp
    else .lit l
  | _ => .lit l

/-- Tokens that begin an expression, without `NOT`. -/
def firstsPlain : List Base := firsts.filter (· != .lit "NOT".toList)

/-- Words that end an expression. -/
def closers : List Base := [.lit ")".toList, .lit "]".toList, .lit ";".toList, .lit "FROM".toList, .lit "WHERE".toList,
  .lit "GROUP".toList, .lit "HAVING".toList, .lit "ORDER".toList, .lit "LIMIT".toList, .lit "JOIN".toList, .lit "WHEN".toList,
  .lit "THEN".toList, .lit "ELSE".toList, .lit "END".toList, .lit "UNION".toList, .lit "INTERSECT".toList]

/-- What may follow an expression in a list. -/
def ends : List Base := .lit ",".toList :: closers

/-- What may follow an expression, a call excepted. -/
def nexts : List Base := ends ++ [.notOp, .lit "[".toList, .lit ".".toList, .lit "IS".toList,
  .lit "BETWEEN".toList, .lit "IN".toList] ++ binaryOps.map fun op => .lit op.1

/-- The flag for names with which an operand is parsed; `is` is what follows it. -/
def subFlag : List Item → Option Bool
  | .tok l :: _ => if nexts.contains (.lit l) then none else some false
  | _ => some false

/-- The flag for names with which a list is parsed. -/
def flagFor : ListKind → Option Bool
  | .named => some true
  | _ => none

/-- The cells of a shape; `i` is the number of the first gap. -/
def cellsOf : List Item → Nat → List Cell
  | [], _ => []
  | .tok l :: is, i => ⟨[baseOf l is], none⟩ :: cellsOf is (i + 1)
  | .name :: is, i => ⟨[.other .Identifier], none⟩ :: cellsOf is (i + 1)
  | .sub b :: is, i => ⟨firsts, some (.expr b (subFlag is) i)⟩ :: ⟨[], none⟩ :: cellsOf is (i + 1)
  | .plain b :: is, i => ⟨firstsPlain, some (.expr b (subFlag is) i)⟩ :: ⟨[], none⟩ :: cellsOf is (i + 1)
  | .list k :: is, i => ⟨firsts, some (.exprs (flagFor k) i)⟩ :: ⟨[], none⟩ :: cellsOf is (i + 1)
  | .list2 :: is, i => ⟨firsts, some (.exprs none i)⟩ :: ⟨[], none⟩ :: cellsOf is (i + 1)

/-- The cell with which an item begins. -/
def cellIdx : List Item → Nat → Nat
  | [], _ => 0
  | _, 0 => 0
  | .tok _ :: is, i + 1 => cellIdx is i + 1
  | .name :: is, i + 1 => cellIdx is i + 1
  | _ :: is, i + 1 => cellIdx is i + 2

/-- The term for the node of a shape; `off` is the number of cells before it. -/
def termOf (items : List Item) (off : Nat) : Form → Term
  | .left => .hole 0
  | .sub i => .hole (i + 1)
  | .new i ty => .new (off + cellIdx items i) ty
  | .push n k c => .push (termOf items off n) k (termOf items off c)
  | .pushList n k i => .pushVec (termOf items off n) k (.holes (i + 1))
  | .pushNone n k => .pushVec (termOf items off n) k .nil
  | .push1 n k a => .pushVec (termOf items off n) k (.snoc .nil (termOf items off a))
  | .push2 n k a b => .pushVec (termOf items off n) k (.snoc (.snoc .nil (termOf items off a)) (termOf items off b))
  | .push3 n k a b c => .pushVec (termOf items off n) k
      (.snoc (.snoc (.snoc .nil (termOf items off a)) (termOf items off b)) (termOf items off c))

/-- The same, or a name, or `DO`. -/
def nameNexts : List Base := .lit "AS".toList :: .other .Identifier :: (nexts ++ [.lit "DO".toList])

/-- The same, or a direction of sorting. -/
def tailNexts : List Base := .lit "ASC".toList :: .lit "DESC".toList :: nameNexts

/-- What may follow a shape. -/
def nextsOf (s : Shape) : List Base := if s.closed = true then tailNexts else nameNexts

/-- The window for a shape. -/
def shapeWindow (left : List Cell) (s : Shape) (next : List Base) (leftId : Option Bool) : Window where
  cells := left ++ cellsOf s.items 1 ++ [⟨next, none⟩]
  leftId := leftId
  two := s.items.contains .list2
  lo := s.level + 1
  hi := usizeMax

/-- The parts of a command. -/
def seqL : Cmd → Cmd
  | .seq a _ => a
  | c => c
/-- The parts of a command. -/
def seqR : Cmd → Cmd
  | .seq _ b => b
  | c => c
/-- The body of a loop. -/
def loopBody : Cmd → Cmd
  | .loop c => c
  | c => c

/-- `parse_expr` up to its loop. -/
def exprPre : Cmd := .seq (seqL Program.parse_expr.body) (seqL (seqR Program.parse_expr.body))
/-- The body of the loop of `parse_expr`. -/
def exprLoop : Cmd := loopBody (seqL (seqR (seqR Program.parse_expr.body)))
/-- `parse_expr` after its loop. -/
def exprPost : Cmd := seqR (seqR (seqR Program.parse_expr.body))

/-- What is known at the beginning of `parse_expr`. -/
def preEnv : AEnv := abind Program.parse_expr.params [.someNat, .someBool, .bool false, .bool false, .bool true]
/-- What is known in the loop of `parse_expr`. -/
def loopEnv : AEnv := abind [v_left, v_precedence, v_alias, v_as_table, v_order]
  [.node (.hole 0), .someNat, .someBool, .bool false, .bool true]

/-- The command ends in the cell `i` with the node `t` as `left`. -/
def reaches (i : Nat) (t : Term) : Option (AFlow × ASt) → Bool
  | some (.norm, s) => s.pos == i && (match s.env v_left with | .node t' => t'.norm == t | _ => false) &&
      s.env v_precedence == .someNat && s.env v_alias == .someBool && s.env v_as_table == .bool false &&
      s.env v_order == .bool true
  | _ => false

/-- The number of words among the items. -/
def toks (is : List Item) : Nat := is.countP fun | .tok _ => true | _ => false

/-- Levels of inlined calls. -/
def inl (is : List Item) : Nat := if 3 ≤ toks is then 8 else 3

/-- A shape that begins an expression. -/
def checkPre (s : Shape) : Bool :=
  let w := shapeWindow [] s (nextsOf s) none
  reaches (w.cells.length - 2) (termOf s.items 0 s.node) (aexec w (acall w (inl s.items)) exprPre ⟨0, preEnv⟩)

/-- A single token. -/
def checkAtom (b : Base) (ty : NodeType) (next : List Base) : Bool :=
  let w : Window := ⟨[⟨[b], none⟩, ⟨next, none⟩], none, false, 0, usizeMax⟩
  reaches 0 (.new 0 ty) (aexec w (acall w 3) exprPre ⟨0, preEnv⟩)

/-- A shape that continues an expression; `b` is what its last token may be. -/
def checkPost (b : List Base) (s : Shape) (next : List Base) (leftId : Option Bool) : Bool :=
  let w := shapeWindow [⟨b, none⟩] s next leftId
  reaches (w.cells.length - 2) (termOf s.items 1 s.node) (aexec w (acall w (inl s.items)) exprLoop ⟨0, loopEnv⟩)

/-- The end of an expression before `b`. -/
def checkExit (b : Base) (a : Bool) : Bool :=
  match b.prec with
  | none => false
  | some p =>
    let w : Window := ⟨[⟨[], none⟩, ⟨[b], none⟩], none, false, 0, p⟩
    match aexec w (acall w 0) (.seq (.loop exprLoop) exprPost) ⟨0, loopEnv.set v_alias (.bool a)⟩ with
    | some (.ret (.node (.hole 0)), s) => s.pos == 0
    | _ => false

/-- The words after an expression. -/
def tailCells : Tail → List Cell
  | .named _ => [⟨[.lit "AS".toList], none⟩, ⟨[.other .Identifier], none⟩]
  | .short _ => [⟨[.other .Identifier], none⟩]
  | .sorted l => [⟨[.lit l], none⟩]

/-- The node of an expression with the words after it. -/
def tailTerm : Tail → Term
  | .named _ => .push (.push (.hole 0) .k_as (.new 1 .Keyword)) .k_alias (.new 2 .Identifier)
  | .short _ => .push (.hole 0) .k_alias (.new 1 .Identifier)
  | .sorted _ => .push (.hole 0) .k_order (.new 1 .Keyword)

/-- The flag for names. -/
def flagOf : Option Bool → AVal
  | some b => .bool b
  | none => .someBool

/-- The end of an expression in a list; `a` is the flag for names. -/
def checkTail (t : Tail) (a : Bool) : Bool :=
  let w : Window := ⟨⟨[], none⟩ :: tailCells t ++ [⟨ends, none⟩], none, false, 0, usizeMax⟩
  match aexec w (acall w 3) (.seq (.loop exprLoop) exprPost) ⟨0, loopEnv.set v_alias (.bool a)⟩ with
  | some (.ret (.node n), s) => n.norm == tailTerm t && s.pos == (tailCells t).length
  | _ => false

/-- `parse_exprs` up to its loop. -/
def listPre : Cmd :=
  .seq (seqL Program.parse_exprs.body) (.seq (seqL (seqR Program.parse_exprs.body))
    (.seq (seqL (seqR (seqR Program.parse_exprs.body))) (seqL (seqR (seqR (seqR Program.parse_exprs.body))))))
/-- The body of the loop of `parse_exprs`. -/
def listLoop : Cmd := loopBody (seqL (seqR (seqR (seqR (seqR Program.parse_exprs.body)))))

/-- What is known in the loop of `parse_exprs`. -/
def listEnv (al : Option Bool) : AEnv := abind [v_until, v_alias, v_exprs] [.someKws, flagOf al, .vec (.holes 0)]

/-- An element of a list. -/
def element (al : Option Bool) : List Cell := [⟨firsts, some (.expr loosest al 1)⟩, ⟨[], none⟩]
/-- A comma. -/
def comma : Cell := ⟨[.lit ",".toList], none⟩

/-- A list of one element. -/
def wOne (al : Option Bool) : Window := ⟨element al ++ [⟨closers, none⟩], none, false, 0, 0⟩
/-- The first element of a list. -/
def wFirst (al : Option Bool) : Window := ⟨element al ++ [comma, ⟨firsts, none⟩], none, false, 0, 0⟩
/-- The last element of a list. -/
def wLast (al : Option Bool) : Window := ⟨comma :: element al ++ [⟨closers, none⟩], none, false, 0, 0⟩
/-- Another element of a list. -/
def wMore (al : Option Bool) : Window := ⟨comma :: element al ++ [comma, ⟨firsts, none⟩], none, false, 0, 0⟩

/-- The vector and the other variables of `parse_exprs`. -/
def listAt (al : Option Bool) (i : Nat) (v : Term) (s : ASt) : Bool :=
  s.pos == i && s.env v_exprs == .vec v && s.env v_until == .someKws && s.env v_alias == flagOf al

/-- A list of one element. -/
def checkOne (al : Option Bool) : Bool :=
  acall (wOne al) 1 .parse_exprs [.someKws, flagOf al, .bool true] 0 == some (.vec (.snoc .nil (.hole 1)), 1)
/-- The first element of a list. -/
def checkFirst (al : Option Bool) : Bool :=
  match aexec (wFirst al) (acall (wFirst al) 0) listPre
    ⟨0, abind Program.parse_exprs.params [.someKws, flagOf al, .bool true]⟩ with
  | some (.norm, s) => listAt al 2 (.snoc .nil (.push (.hole 1) .k_comma (.new 2 .Symbol))) s
  | _ => false
/-- The last element of a list. -/
def checkLast (al : Option Bool) : Bool :=
  match aexec (wLast al) (acall (wLast al) 0) listLoop ⟨0, listEnv al⟩ with
  | some (.brk, s) => listAt al 2 (.snoc (.holes 0) (.hole 1)) s
  | _ => false
/-- Another element of a list. -/
def checkMore (al : Option Bool) : Bool :=
  match aexec (wMore al) (acall (wMore al) 0) listLoop ⟨0, listEnv al⟩ with
  | some (.norm, s) => listAt al 3 (.snoc (.holes 0) (.push (.hole 1) .k_comma (.new 3 .Symbol))) s
  | _ => false

/-- The words that are used. -/
def vocab : List Str := (tailNexts ++ firsts).filterMap Base.lit? ++ ["DISTINCT".toList, "SELECT".toList, "ALL".toList, "BY".toList,
  "ON".toList, "LEFT".toList, "INNER".toList, "SET".toList, "ASSERT".toList, "EXECUTE".toList, "IMMEDIATE".toList, "CALL".toList,
  "RETURN".toList, "BREAK".toList, "CONTINUE".toList, "COMMIT".toList, "ROLLBACK".toList, "DECLARE".toList, "DEFAULT".toList,
  "DELETE".toList, "UPDATE".toList, "INSERT".toList, "INTO".toList, "VALUES".toList, "TRUNCATE".toList, "TABLE".toList,
  "VIEW".toList, "DROP".toList, "IF".toList, "CREATE".toList, "EXISTS".toList, "LOOP".toList, "REPEAT".toList, "UNTIL".toList,
  "WHILE".toList, "BEGIN".toList, "EXCEPTION".toList, "ERROR".toList, "ELSEIF".toList, "FOR".toList,
  "WITH".toList, ":".toList, "LEAVE".toList, "ITERATE".toList]

/-- Words that begin a statement. -/
def heads : List Str := ["SELECT".toList, "SET".toList, "ASSERT".toList, "EXECUTE".toList, "CALL".toList, "RETURN".toList,
  "BREAK".toList, "CONTINUE".toList, "COMMIT".toList, "ROLLBACK".toList, "DECLARE".toList, "DELETE".toList, "UPDATE".toList,
  "INSERT".toList, "TRUNCATE".toList, "DROP".toList, "CREATE".toList, "LOOP".toList, "REPEAT".toList, "WHILE".toList,
  "BEGIN".toList, "IF".toList, "LEAVE".toList, "ITERATE".toList]

/-- What follows an operand. -/
def followOk (b : Nat) : List Item → Bool
  | [] => true
  | .tok l :: is => baseOf l is == .lit l && nameNexts.contains (.lit l) && (Base.lit l).prec == some (levelOf l) &&
      decide (b ≤ levelOf l)
  | _ => false

/-- What follows a list. -/
def listFollowOk : List Item → Bool
  | [] => true
  | .tok l :: is => baseOf l is == .lit l && closers.contains (.lit l)
  | _ => false

/-- The items of a shape fit together. -/
def itemsOk : List Item → Bool
  | [] => true
  | .tok l :: is => vocab.contains l && itemsOk is
  | .name :: is => itemsOk is
  | .sub b :: is => decide (1 ≤ b) && decide (b ≤ loosest) && followOk b is && itemsOk is
  | .plain b :: is => decide (1 ≤ b) && decide (b ≤ loosest) && followOk b is && itemsOk is
  | .list _ :: is => listFollowOk is && itemsOk is
  | .list2 :: is => listFollowOk is && itemsOk is

/-- The last item is no list. -/
def noEnd : List Item → Bool
  | [] => true
  | [.list _] => false
  | [.list2] => false
  | _ :: is => noEnd is

/-- There are enough words. -/
def enoughToks (is : List Item) : Bool :=
  decide (1 ≤ toks is) && (decide (2 ≤ toks is) || is.all fun | .list _ => false | .list2 => false | _ => true)

/-- The numbers in a form are those of items. -/
def formOk (n : Nat) : Form → Bool
  | .left => true
  | .sub _ => true
  | .new i _ => decide (i < n)
  | .push f _ c => formOk n f && formOk n c
  | .pushList f _ _ => formOk n f
  | .pushNone f _ => formOk n f
  | .push1 f _ a => formOk n f && formOk n a
  | .push2 f _ a b => formOk n f && formOk n a && formOk n b
  | .push3 f _ a b c => formOk n f && formOk n a && formOk n b && formOk n c

/-- The first token of a shape that continues an expression. -/
def headOk (s : Shape) : Bool :=
  match s.items with
  | .tok l :: is => (baseOf l is).prec == some s.level && decide (s.level < loosest) &&
    if s = .call ∨ s = .call0 then baseOf l is == .lit "(".toList else nexts.contains (baseOf l is)
  | _ => false

/-- The first token of a shape that begins an expression. -/
def firstOk (s : Shape) : Bool :=
  match s.items with
  | .tok l :: is => baseOf l is == .lit l && firsts.contains (.lit l)
  | _ => false

/-- The window for a statement. -/
def stmtWindow (s : Shape) : Window where
  cells := cellsOf s.items 1 ++ [⟨[.lit ";".toList], none⟩]
  leftId := none
  two := false
  lo := 0
  hi := 0

/-- Levels of inlined calls. -/
def stmtInl (is : List Item) : Nat := if 4 ≤ toks is then 12 else if 2 ≤ toks is then 8 else 4

/-- A statement. -/
def checkStmt (s : Shape) : Bool :=
  let w := stmtWindow s
  match acall w (stmtInl s.items) .parse_statement [.bool true] 0 with
  | some (.node t, i) => t.norm == (Term.push (termOf s.items 0 s.node) .k_semicolon (.new i .Symbol)) &&
      i == w.cells.length - 1
  | _ => false

end Verif.Sym
