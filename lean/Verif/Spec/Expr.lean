import Verif.Model.Cst
/-!
Operator expressions: how they are written and which trees they stand for.  The syntax is a table of shapes; each shape
says which words and operands follow one another and which node it makes of them.
-/
namespace Verif.Spec

/-- The number of the loosest level: everything can stand there. -/
def loosest : Nat := 4294967295

/-- What may stand after the expressions of a list: nothing, names for them, or directions of sorting. -/
inductive ListKind
  | plain
  | named
  | sorted
  deriving DecidableEq

/-- What a shape consists of. -/
inductive Item
  /-- a word or a symbol -/
  | tok (l : Str)
  /-- a name -/
  | name
  /-- an operand, in which operators below this level need no parentheses -/
  | sub (bound : Nat)
  /-- the same, but the operand does not begin with `NOT` -/
  | plain (bound : Nat)
  /-- expressions with commas between them -/
  | list (k : ListKind)
  /-- two at least -/
  | list2
  deriving DecidableEq

/-- The node of a shape.  Numbers are those of the items. -/
inductive Form
  /-- the operand to the left of the shape -/
  | left
  /-- the operand -/
  | sub (i : Nat)
  /-- a node for the token -/
  | new (i : Nat) (ty : NodeType)
  /-- the node `n` with the child `c` -/
  | push (n : Form) (k : Key) (c : Form)
  /-- the node `n` with the list as an array of children -/
  | pushList (n : Form) (k : Key) (i : Nat)
  /-- the node `n` with an empty array of children -/
  | pushNone (n : Form) (k : Key)
  /-- the node `n` with an array of one child -/
  | push1 (n : Form) (k : Key) (a : Form)
  /-- two children -/
  | push2 (n : Form) (k : Key) (a b : Form)
  /-- three children -/
  | push3 (n : Form) (k : Key) (a b c : Form)
  deriving DecidableEq

/-- A shape.  `level` is only used for shapes with an operand to the left. -/
structure Shape where
  items : List Item
  node : Form
  level : Nat := 0
  deriving DecidableEq

/-- Binary operators, with their level: a smaller one binds tighter. -/
def binaryOps : List (Str × Nat) := [
  ("*".toList, 103), ("/".toList, 103), ("||".toList, 103), ("+".toList, 104), ("-".toList, 104),
  ("<<".toList, 105), (">>".toList, 105), ("&".toList, 106), ("^".toList, 107), ("|".toList, 108),
  ("=".toList, 109), ("<".toList, 109), (">".toList, 109), ("<=".toList, 109), (">=".toList, 109),
  ("!=".toList, 109), ("<>".toList, 109), ("LIKE".toList, 109), ("AND".toList, 111), ("OR".toList, 112),
  ("=>".toList, 200)]

/-- Prefix operators, with the level of the operand. -/
def unaryOps : List (Str × Nat) := [("-".toList, 102), ("+".toList, 102), ("~".toList, 102), ("NOT".toList, 110)]

/-- `x op y`. -/
def Shape.binary (op : Str × Nat) : Shape where
  items := [.tok op.1, .sub op.2]
  node := ((Form.new 0 .BinaryOperator).push .k_left .left).push .k_right (.sub 1)
  level := op.2

/-- `op x`. -/
def Shape.unary (op : Str × Nat) : Shape where
  items := [.tok op.1, .sub op.2]
  node := (Form.new 0 .UnaryOperator).push .k_right (.sub 1)

/-- `(x)`. -/
def Shape.paren : Shape where
  items := [.tok "(".toList, .sub loosest, .tok ")".toList]
  node := ((Form.new 0 .GroupedExpr).push .k_expr (.sub 1)).push .k_rparen (.new 2 .Symbol)

/-- `(x, y)`. -/
def Shape.tuple : Shape where
  items := [.tok "(".toList, .list2, .tok ")".toList]
  node := ((Form.new 0 .StructLiteral).pushList .k_exprs 1).push .k_rparen (.new 2 .Symbol)

/-- `()`. -/
def Shape.unitTuple : Shape where
  items := [.tok "(".toList, .tok ")".toList]
  node := (Form.new 0 .EmptyStruct).push .k_rparen (.new 1 .Symbol)

/-- `[x, y]`. -/
def Shape.array : Shape where
  items := [.tok "[".toList, .list .plain, .tok "]".toList]
  node := ((Form.new 0 .ArrayLiteral).pushList .k_exprs 1).push .k_rparen (.new 2 .Symbol)

/-- `[]`. -/
def Shape.noArray : Shape where
  items := [.tok "[".toList, .tok "]".toList]
  node := ((Form.new 0 .ArrayLiteral).pushNone .k_exprs).push .k_rparen (.new 1 .Symbol)

/-- `f(x, y)`. -/
def Shape.call : Shape where
  items := [.tok "(".toList, .list .plain, .tok ")".toList]
  node := (((Form.new 0 .CallingFunction).push .k_func .left).pushList .k_args 1).push .k_rparen (.new 2 .Symbol)
  level := 101

/-- `f()`. -/
def Shape.call0 : Shape where
  items := [.tok "(".toList, .tok ")".toList]
  node := ((Form.new 0 .CallingFunction).push .k_func .left).push .k_rparen (.new 1 .Symbol)
  level := 101

/-- `x[y]`. -/
def Shape.index : Shape where
  items := [.tok "[".toList, .sub loosest, .tok "]".toList]
  node := (((Form.new 0 .AccessOperator).push .k_left .left).push .k_right (.sub 1)).push .k_rparen (.new 2 .Symbol)
  level := 101

/-- `x.f`. -/
def Shape.field : Shape where
  items := [.tok ".".toList, .name]
  node := ((Form.new 0 .DotOperator).push .k_left .left).push .k_right (.new 1 .Identifier)
  level := 102

/-- `x IS y`. -/
def Shape.isOp : Shape where
  items := [.tok "IS".toList, .plain 109]
  node := ((Form.new 0 .BinaryOperator).push .k_left .left).push .k_right (.sub 1)
  level := 109

/-- `x IS NOT y`. -/
def Shape.isNot : Shape where
  items := [.tok "IS".toList, .tok "NOT".toList, .plain 109]
  node := (((Form.new 0 .BinaryOperator).push .k_not (.new 1 .Keyword)).push .k_left .left).push .k_right (.sub 2)
  level := 109

/-- `x IS DISTINCT FROM y`. -/
def Shape.isDistinct : Shape where
  items := [.tok "IS".toList, .tok "DISTINCT".toList, .tok "FROM".toList, .sub 109]
  node := ((((Form.new 0 .IsDistinctFromOperator).push .k_left .left).push .k_distinct (.new 1 .Keyword)).push
    .k_from (.new 2 .Keyword)).push .k_right (.sub 3)
  level := 109

/-- `x IS NOT DISTINCT FROM y`. -/
def Shape.isNotDistinct : Shape where
  items := [.tok "IS".toList, .tok "NOT".toList, .tok "DISTINCT".toList, .tok "FROM".toList, .sub 109]
  node := (((((Form.new 0 .IsDistinctFromOperator).push .k_left .left).push .k_not (.new 1 .Keyword)).push
    .k_distinct (.new 2 .Keyword)).push .k_from (.new 3 .Keyword)).push .k_right (.sub 4)
  level := 109

/-- `x BETWEEN y AND z`. -/
def Shape.between : Shape where
  items := [.tok "BETWEEN".toList, .sub 109, .tok "AND".toList, .sub 109]
  node := ((((Form.new 0 .BetweenOperator).push .k_left .left).push .k_right_min (.sub 1)).push
    .k_and (.new 2 .Keyword)).push .k_right_max (.sub 3)
  level := 109

/-- `x NOT BETWEEN y AND z`. -/
def Shape.notBetween : Shape where
  items := [.tok "NOT".toList, .tok "BETWEEN".toList, .sub 109, .tok "AND".toList, .sub 109]
  node := (((((Form.new 1 .BetweenOperator).push .k_left .left).push .k_right_min (.sub 2)).push
    .k_and (.new 3 .Keyword)).push .k_right_max (.sub 4)).push .k_not (.new 0 .Keyword)
  level := 109

/-- `x NOT LIKE y`. -/
def Shape.notLike : Shape where
  items := [.tok "NOT".toList, .tok "LIKE".toList, .sub 109]
  node := (((Form.new 1 .BinaryOperator).push .k_left .left).push .k_right (.sub 2)).push .k_not (.new 0 .Keyword)
  level := 109

/-- `x IN (y, z)`. -/
def Shape.inList : Shape where
  items := [.tok "IN".toList, .tok "(".toList, .list .plain, .tok ")".toList]
  node := ((Form.new 0 .InOperator).push .k_left .left).push .k_right
    (((Form.new 1 .GroupedExprs).pushList .k_exprs 2).push .k_rparen (.new 3 .Symbol))
  level := 109

/-- `x NOT IN (y, z)`. -/
def Shape.notInList : Shape where
  items := [.tok "NOT".toList, .tok "IN".toList, .tok "(".toList, .list .plain, .tok ")".toList]
  node := (((Form.new 1 .InOperator).push .k_left .left).push .k_right
    (((Form.new 2 .GroupedExprs).pushList .k_exprs 3).push .k_rparen (.new 4 .Symbol))).push .k_not (.new 0 .Keyword)
  level := 109

/-- `*`. -/
def Shape.star : Shape where
  items := [.tok "*".toList]
  node := Form.new 0 .Asterisk

/-- A shape with more items.  `f` is given the number of the first of them and the node without them. -/
def Shape.add (s : Shape) (is : List Item) (f : Nat → Form → Form) : Shape :=
  { s with items := s.items ++ is, node := f s.items.length s.node }

/-- With and without something. -/
def Shape.opt (f : Shape → Shape) (s : Shape) : List Shape := [s, f s]

/-- `CASE WHEN x THEN y` or `CASE x WHEN y THEN z`. -/
def Shape.cases : List Shape := [
  { items := [.tok "CASE".toList], node := Form.new 0 .CaseExpr },
  { items := [.tok "CASE".toList, .sub loosest], node := (Form.new 0 .CaseExpr).push .k_expr (.sub 1) }]

/-- `WHEN x THEN y`. -/
def whenItems : List Item := [.tok "WHEN".toList, .sub loosest, .tok "THEN".toList, .sub loosest]
/-- The node for `WHEN x THEN y`; `n` is the number of `WHEN`. -/
def whenForm (n : Nat) : Form :=
  (((Form.new n .CaseExprArm).push .k_expr (.sub (n + 1))).push .k_then (.new (n + 2) .Keyword)).push .k_result (.sub (n + 3))
/-- `ELSE x`. -/
def elseItems : List Item := [.tok "ELSE".toList, .sub loosest]
/-- The node for `ELSE x`. -/
def elseForm (n : Nat) : Form := (Form.new n .CaseExprArm).push .k_result (.sub (n + 1))

/-- The ways to go on after `CASE x`. -/
def Shape.arms (s : Shape) : List Shape := [
  s.add whenItems fun n f => f.push1 .k_arms (whenForm n),
  s.add (whenItems ++ elseItems) fun n f => f.push2 .k_arms (whenForm n) (elseForm (n + 4)),
  s.add (whenItems ++ whenItems) fun n f => f.push2 .k_arms (whenForm n) (whenForm (n + 4)),
  s.add (whenItems ++ whenItems ++ elseItems) fun n f => f.push3 .k_arms (whenForm n) (whenForm (n + 4)) (elseForm (n + 8))]

/-- `CASE x WHEN y THEN z ELSE w END`, with one or two `WHEN`. -/
def caseShapes : List Shape :=
  (Shape.cases.flatMap Shape.arms).map fun s => s.add [.tok "END".toList] fun n f => f.push .k_end (.new n .Keyword)

/-- `SELECT x, y`. -/
def Shape.select : Shape where
  items := [.tok "SELECT".toList, .list .named]
  node := (Form.new 0 .SelectStatement).pushList .k_exprs 1

/-- `SELECT DISTINCT x, y`. -/
def Shape.selectWord (w : Str) : Shape where
  items := [.tok "SELECT".toList, .tok w, .list .named]
  node := ((Form.new 0 .SelectStatement).push .k_distinct_or_all (.new 1 .Keyword)).pushList .k_exprs 2

/-- A table expression: its items, and its node if these are numbered from the given number on. -/
structure Table where
  items : List Item
  node : Nat → Form

/-- `t`. -/
def Table.name : Table where
  items := [.name]
  node n := .new n .Identifier
/-- `d.t`. -/
def Table.field : Table where
  items := [.name, .tok ".".toList, .name]
  node n := ((Form.new (n + 1) .DotOperator).push .k_left (.new n .Identifier)).push .k_right (.new (n + 2) .Identifier)
/-- `t AS u`. -/
def Table.as (t : Table) : Table where
  items := t.items ++ [.tok "AS".toList, .name]
  node n := ((t.node n).push .k_as (.new (n + t.items.length) .Keyword)).push .k_alias (.new (n + t.items.length + 1) .Identifier)
/-- `t u`. -/
def Table.short (t : Table) : Table where
  items := t.items ++ [.name]
  node n := (t.node n).push .k_alias (.new (n + t.items.length) .Identifier)
/-- `t, u`. -/
def Table.comma (t u : Table) : Table where
  items := t.items ++ [.tok ",".toList] ++ u.items
  node n := ((Form.new (n + t.items.length) .JoinOperator).push .k_left (t.node n)).push .k_right
    (u.node (n + t.items.length + 1))
/-- `t JOIN u ON x`. -/
def Table.join (t u : Table) : Table where
  items := t.items ++ [.tok "JOIN".toList] ++ u.items ++ [.tok "ON".toList, .sub loosest]
  node n := let m := n + t.items.length; let k := m + 1 + u.items.length
    (((Form.new m .JoinOperator).push .k_on ((Form.new k .KeywordWithExpr).push .k_expr (.sub (k + 1)))).push
      .k_left (t.node n)).push .k_right (u.node (m + 1))
/-- `t LEFT JOIN u ON x`. -/
def Table.sideJoin (w : Str) (t u : Table) : Table where
  items := t.items ++ [.tok w, .tok "JOIN".toList] ++ u.items ++ [.tok "ON".toList, .sub loosest]
  node n := let m := n + t.items.length; let k := m + 2 + u.items.length
    ((((Form.new (m + 1) .JoinOperator).push .k_join_type (.new m .Keyword)).push .k_on
      ((Form.new k .KeywordWithExpr).push .k_expr (.sub (k + 1)))).push .k_left (t.node n)).push .k_right (u.node (m + 2))

/-- The table expressions of queries. -/
def tables : List Table := [.name, .field, .as .name, .as .field, .short .name, .comma .name .name, .join .name .name,
  .join (.as .name) (.as .name), .sideJoin "LEFT".toList (.as .name) (.as .name), .join (.join .name .name) .name]

/-- `FROM t`. -/
def Shape.from (s : Shape) (t : Table) : Shape :=
  s.add (.tok "FROM".toList :: t.items) fun n f => f.push .k_from ((Form.new n .KeywordWithExpr).push .k_expr (t.node (n + 1)))

/-- `WHERE x` and the like. -/
def Shape.clause (w : Str) (k : Key) (ty : NodeType) (s : Shape) : Shape :=
  s.add [.tok w, .sub loosest] fun n f => f.push k ((Form.new n ty).push .k_expr (.sub (n + 1)))

/-- `GROUP BY x, y` and the like. -/
def Shape.by (w : Str) (k : Key) (ty : NodeType) (kind : ListKind) (s : Shape) : Shape :=
  s.add [.tok w, .tok "BY".toList, .list kind] fun n f =>
    f.push k (((Form.new n ty).push .k_by (.new (n + 1) .Keyword)).pushList .k_exprs (n + 2))

/-- `WHERE x`. -/
def Shape.where : Shape → Shape := Shape.clause "WHERE".toList .k_where .KeywordWithExpr
/-- `GROUP BY x, y`. -/
def Shape.groupBy : Shape → Shape := Shape.by "GROUP".toList .k_groupby .GroupByExprs .plain
/-- `HAVING x`. -/
def Shape.having : Shape → Shape := Shape.clause "HAVING".toList .k_having .KeywordWithExpr
/-- `ORDER BY x ASC, y DESC`. -/
def Shape.orderBy : Shape → Shape := Shape.by "ORDER".toList .k_orderby .XXXByExprs .sorted
/-- `LIMIT x`. -/
def Shape.limit : Shape → Shape := Shape.clause "LIMIT".toList .k_limit .LimitClause

/-- What may follow `FROM t`. -/
def Shape.clauses (s : Shape) : List Shape :=
  ((((s.opt .where).flatMap fun s => [s, s.groupBy, s.groupBy.having]).flatMap (Shape.opt .orderBy)).flatMap (Shape.opt .limit))

/-- Queries. -/
def queries : List Shape :=
  .selectWord "ALL".toList :: ([Shape.select, .selectWord "DISTINCT".toList] : List Shape).flatMap fun s =>
    s :: s.orderBy :: s.limit :: tables.flatMap fun t => (s.from t).clauses

/-- The items and the node of a shape behind `n` other items. -/
def Form.shift (n : Nat) : Form → Form
  | .left => .left
  | .sub i => .sub (n + i)
  | .new i ty => .new (n + i) ty
  | .push f k c => .push (f.shift n) k (c.shift n)
  | .pushList f k i => .pushList (f.shift n) k (n + i)
  | .pushNone f k => .pushNone (f.shift n) k
  | .push1 f k a => .push1 (f.shift n) k (a.shift n)
  | .push2 f k a b => .push2 (f.shift n) k (a.shift n) (b.shift n)
  | .push3 f k a b c => .push3 (f.shift n) k (a.shift n) (b.shift n) (c.shift n)

/-- `SELECT x UNION ALL SELECT y`. -/
def Shape.setOp (w d : Str) (s q : Shape) : Shape :=
  s.add (.tok w :: .tok d :: q.items) fun n f =>
    (((Form.new n .SetOperator).push .k_distinct_or_all (.new (n + 1) .Keyword)).push .k_left f).push .k_right (q.node.shift (n + 2))

/-- `UNION ALL` and the like. -/
def setOps (s q : Shape) : List Shape := [s.setOp "UNION".toList "ALL".toList q, s.setOp "UNION".toList "DISTINCT".toList q,
  s.setOp "INTERSECT".toList "DISTINCT".toList q]

/-- Queries with set operators, which are grouped from the left. -/
def setQueries : List Shape :=
  let simple := [Shape.select, Shape.select.from .name, (Shape.select.from .name).where, (Shape.select.from .name).groupBy]
  (simple.flatMap fun s => simple.flatMap (setOps s)) ++
  ((simple.take 2).flatMap fun s => (setOps s s).flatMap fun s => (simple.take 2).flatMap (setOps s))

/-- `WITH a AS (SELECT x) SELECT y`. -/
def Shape.with (c q : Shape) : Shape :=
  let n := c.items.length + 5
  { items := .tok "WITH".toList :: .name :: .tok "AS".toList :: .tok "(".toList :: c.items ++ .tok ")".toList :: q.items
    node := (q.node.shift n).push .k_with ((Form.new 0 .WithClause).push1 .k_queries
      (((Form.new 1 .WithQuery).push .k_as (.new 2 .Keyword)).push .k_stmt
        (((Form.new 3 .GroupedStatement).push .k_stmt (c.node.shift 4)).push .k_rparen (.new (n - 1) .Symbol)))) }

/-- Queries with `WITH`. -/
def withQueries : List Shape :=
  let simple := [Shape.select, Shape.select.from .name, (Shape.select.from .name).where]
  simple.flatMap fun c => (simple ++ [Shape.select.setOp "UNION".toList "ALL".toList .select]).map c.with

/-- The queries that stand in parentheses in expressions. -/
def subqueries : List Shape :=
  Shape.select :: [Table.name, .field, .as .name].flatMap (fun t => (Shape.select.from t).clauses) ++ setQueries.take 6

/-- `(SELECT x)`. -/
def Shape.subquery (s : Shape) : Shape where
  items := .tok "(".toList :: s.items ++ [.tok ")".toList]
  node := ((Form.new 0 .GroupedStatement).push .k_stmt (s.node.shift 1)).push .k_rparen (.new (s.items.length + 1) .Symbol)

/-- `x IN (SELECT y)`. -/
def Shape.inSubquery (s : Shape) : Shape where
  items := .tok "IN".toList :: .tok "(".toList :: s.items ++ [.tok ")".toList]
  node := ((Form.new 0 .InOperator).push .k_left .left).push .k_right
    (((Form.new 1 .GroupedStatement).push .k_stmt (s.node.shift 2)).push .k_rparen (.new (s.items.length + 2) .Symbol))
  level := 109

/-- The shapes that begin an expression. -/
def prefixes : List Shape := [.paren, .tuple, .unitTuple, .array, .noArray, .star] ++ unaryOps.map .unary ++ caseShapes ++
  (subqueries ++ withQueries).map .subquery

/-- The shapes that continue an expression. -/
def postfixes : List Shape :=
  [.call, .call0, .index, .field, .isOp, .isNot, .isDistinct, .isNotDistinct, .between, .notBetween, .notLike,
    .inList, .notInList] ++ subqueries.map .inSubquery ++ binaryOps.map .binary

/-- A letter or an underscore. -/
def NameStart (c : Char) : Prop := ('a' ≤ c ∧ c ≤ 'z') ∨ ('A' ≤ c ∧ c ≤ 'Z') ∨ c = '_'

/-- A digit. -/
def Digit (c : Char) : Prop := '0' ≤ c ∧ c ≤ '9'

/-- Single tokens that are expressions, and the type of their node. -/
inductive AtomIs (U : Unicode) : Str → NodeType → Prop
  /-- a name that is none of the words the parser knows -/
  | name (c : Char) (cs : Str) (h : NameStart c) (hs : ∀ d ∈ cs, NameStart d ∨ Digit d)
      (hk : ∀ k : Kw, U.upper (c :: cs) ≠ k.lit) : AtomIs U (c :: cs) .Identifier
  /-- digits -/
  | int (c : Char) (cs : Str) (h : ∀ d ∈ c :: cs, Digit d) : AtomIs U (c :: cs) .NumericLiteral
  /-- digits, a dot, digits -/
  | frac (cs : Str) (d : Char) (ds : Str) (h : ∀ d ∈ cs, Digit d) (hs : ∀ c ∈ d :: ds, Digit c) :
      AtomIs U (cs ++ '.' :: d :: ds) .NumericLiteral
  /-- a string -/
  | string (q : Char) (hq : q = '"' ∨ q = '\'') (cs : Str) : AtomIs U (q :: cs ++ [q]) .StringLiteral
  /-- a named parameter -/
  | param (c : Char) (cs : Str) (h : NameStart c) (hs : ∀ d ∈ cs, NameStart d ∨ Digit d) :
      AtomIs U ('@' :: c :: cs) .Parameter
  | true : AtomIs U "TRUE".toList .BooleanLiteral
  | false : AtomIs U "FALSE".toList .BooleanLiteral
  | null : AtomIs U "NULL".toList .NullLiteral

/-- What stands after an expression in a list. -/
inductive Tail
  /-- `AS l` -/
  | named (l : Str)
  /-- only the name `l` -/
  | short (l : Str)
  /-- `ASC` or `DESC` -/
  | sorted (l : Str)

mutual
/-- Expressions. -/
inductive Ex
  | atom (l : Str) (ty : NodeType)
  | pre (s : Shape) (as : Args)
  | post (x : Ex) (s : Shape) (as : Args)
/-- One expression or more. -/
inductive Exs
  | one (e : Ex)
  | cons (e : Ex) (es : Exs)
  | last (e : Ex) (t : Tail)
  | more (e : Ex) (t : Tail) (es : Exs)
/-- What stands for the items of a shape that are no words. -/
inductive Args
  | nil
  | cons (es : Exs) (as : Args)
end

/-- The words of a shape, given those of the operands. -/
def weave : List Item → List (List Str) → List Str
  | [], _ => []
  | .tok l :: is, ws => l :: weave is ws
  | _ :: is, w :: ws => w ++ weave is ws
  | _ :: is, [] => weave is []

/-- The words after an expression. -/
def Tail.words : Tail → List Str
  | .named l => ["AS".toList, l]
  | .short l => [l]
  | .sorted l => [l]

mutual
/-- The words of an expression. -/
def Ex.words : Ex → List Str
  | .atom l _ => [l]
  | .pre s as => weave s.items as.words
  | .post x s as => x.words ++ weave s.items as.words
/-- The words of expressions with commas between them. -/
def Exs.words : Exs → List Str
  | .one e => e.words
  | .cons e es => e.words ++ ",".toList :: es.words
  | .last e t => e.words ++ t.words
  | .more e t es => (e.words ++ t.words) ++ ",".toList :: es.words
/-- The words of the operands. -/
def Args.words : Args → List (List Str)
  | .nil => []
  | .cons es as => es.words :: as.words
end

/-- What is to be filled in for an item that is no word; `next` is the level of the word that follows. -/
inductive Place
  | name
  | sub (bound : Nat) (plain : Bool) (next : Option Nat)
  | list (k : ListKind)
  | list2
  deriving DecidableEq

/-- The level of a word inside of a shape. -/
def levelOf (l : Str) : Nat := if l = "AND".toList then 111 else loosest

/-- The level of the word that follows. -/
def nextLevel : List Item → Option Nat
  | .tok l :: _ => some (levelOf l)
  | _ => none

/-- The places of a shape. -/
def places : List Item → List Place
  | [] => []
  | .tok _ :: is => places is
  | .name :: is => .name :: places is
  | .sub b :: is => .sub b false (nextLevel is) :: places is
  | .plain b :: is => .sub b true (nextLevel is) :: places is
  | .list k :: is => .list k :: places is
  | .list2 :: is => .list2 :: places is

/-- The level of the operand a shape ends with. -/
def openBound : List Item → Option Nat
  | [] => none
  | [.sub b] => some b
  | [.plain b] => some b
  | _ :: is => openBound is

/-- The shape does not end with an operand. -/
def Shape.closed (s : Shape) : Bool := openBound s.items == none && s != .field

mutual
/-- An operator at the level `f` that follows the expression is not taken for a part of its last operand. -/
def Ex.Closes (f : Nat) : Ex → Prop
  | .atom _ _ => True
  | .pre s as => match openBound s.items with
    | none => True
    | some b => b ≤ f ∧ as.LastCloses f
  | .post _ s as => match openBound s.items with
    | none => True
    | some b => b ≤ f ∧ as.LastCloses f
/-- The same for the last operand. -/
def Exs.LastCloses (f : Nat) : Exs → Prop
  | .one e => e.Closes f
  | .cons _ es => es.LastCloses f
  | .last _ _ => True
  | .more _ _ es => es.LastCloses f
/-- The same for the last of the operands. -/
def Args.LastCloses (f : Nat) : Args → Prop
  | .nil => True
  | .cons es .nil => es.LastCloses f
  | .cons _ as => as.LastCloses f
end

/-- A name, or a name with fields. -/
def Ex.isPath : Ex → Bool
  | .atom _ ty => ty == .Identifier
  | .pre _ _ => false
  | .post x s _ => s == .field && x.isPath

/-- The first word is `NOT`. -/
def Ex.beginsNot (e : Ex) : Bool := e.words.head? == some "NOT".toList

/-- The expression does not end with an operand.  If it does, a direction of sorting becomes a part of that operand; this is
not allowed here. -/
def Ex.closed : Ex → Bool
  | .atom _ _ => true
  | .pre s _ => s.closed
  | .post _ s _ => s.closed

/-- What stands after an expression is allowed there. -/
def Tail.Ok (U : Unicode) : ListKind → Tail → Prop
  | .named, .named l => AtomIs U l .Identifier
  | .named, .short l => AtomIs U l .Identifier
  | .sorted, .sorted l => l = "ASC".toList ∨ l = "DESC".toList
  | _, _ => False

mutual
/-- The expression has the parentheses it needs in order to stand where the operators below level `p` may. -/
def Ex.Ok (U : Unicode) (p : Nat) : Ex → Prop
  | .atom l ty => AtomIs U l ty
  | .pre s as => s ∈ prefixes ∧ as.Ok U (places s.items)
  | .post x s as => s ∈ postfixes ∧ s.level < p ∧ x.Ok U p ∧ x.Closes s.level ∧
      (s = .call ∨ s = .call0 → x.isPath = true) ∧ as.Ok U (places s.items)
/-- The operand fits. -/
def Exs.Ok (U : Unicode) : Place → Exs → Prop
  | .name, .one e => ∃ l, e = .atom l .Identifier ∧ AtomIs U l .Identifier
  | .sub b plain next, .one e => e.Ok U b ∧ (plain = true → e.beginsNot = false) ∧ ∀ f, next = some f → e.Closes f
  | .list _, .one e => e.Ok U loosest
  | .list k, .cons e es => e.Ok U loosest ∧ es.Ok U (.list k)
  | .list k, .last e t => e.Ok U loosest ∧ t.Ok U k ∧ (k = .sorted → e.closed = true)
  | .list k, .more e t es => e.Ok U loosest ∧ t.Ok U k ∧ (k = .sorted → e.closed = true) ∧ es.Ok U (.list k)
  | .list2, .cons e es => e.Ok U loosest ∧ es.Ok U (.list .plain)
  | _, _ => False
/-- The operands fit. -/
def Args.Ok (U : Unicode) : List Place → Args → Prop
  | [], .nil => True
  | s :: ss, .cons es as => es.Ok U s ∧ as.Ok U ss
  | _, _ => False
end

/-- The token at a position. -/
def tokenAt (T : List Token) (q : Nat) : Token := T.getD q Token.eof

/-- An operand: its length, and the trees it stands for if its first token is at the given position. -/
structure Operand where
  width : Nat
  trees : Nat → List Node

/-- The position of each item, and the trees that stand for it. -/
def parts : List Item → List Operand → Nat → List (Nat × List Node)
  | [], _, _ => []
  | .tok _ :: is, os, q => (q, []) :: parts is os (q + 1)
  | _ :: is, o :: os, q => (q, o.trees q) :: parts is os (q + o.width)
  | _ :: is, [], q => (q, []) :: parts is [] q

/-- The tree of a shape. -/
def Form.tree (T : List Token) (left : Node) (ps : List (Nat × List Node)) : Form → Node
  | .left => left
  | .sub i => ((ps.getD i (0, [])).2).headD (Node.empty .Unknown)
  | .new i ty => Node.new (tokenAt T (ps.getD i (0, [])).1) ty
  | .push n k c => (n.tree T left ps).pushNode k (c.tree T left ps)
  | .pushList n k i => (n.tree T left ps).pushVec k (ps.getD i (0, [])).2
  | .pushNone n k => (n.tree T left ps).pushVec k []
  | .push1 n k a => (n.tree T left ps).pushVec k [a.tree T left ps]
  | .push2 n k a b => (n.tree T left ps).pushVec k [a.tree T left ps, b.tree T left ps]
  | .push3 n k a b c => (n.tree T left ps).pushVec k [a.tree T left ps, b.tree T left ps, c.tree T left ps]

/-- The tree `n` with what stands after it at `q`. -/
def Tail.tree (T : List Token) (n : Node) (q : Nat) : Tail → Node
  | .named _ => (n.pushNode .k_as (Node.new (tokenAt T q) .Keyword)).pushNode .k_alias (Node.new (tokenAt T (q + 1)) .Identifier)
  | .short _ => n.pushNode .k_alias (Node.new (tokenAt T q) .Identifier)
  | .sorted _ => n.pushNode .k_order (Node.new (tokenAt T q) .Keyword)

mutual
/-- The tree of an expression whose first token is at `q`. -/
def Ex.tree (T : List Token) : Ex → Nat → Node
  | .atom _ ty, q => Node.new (tokenAt T q) ty
  | .pre s as, q => s.node.tree T (Node.empty .Unknown) (parts s.items (as.operands T) q)
  | .post x s as, q => s.node.tree T (x.tree T q) (parts s.items (as.operands T) (q + x.words.length))
/-- The trees of expressions with commas between them. -/
def Exs.trees (T : List Token) : Exs → Nat → List Node
  | .one e, q => [e.tree T q]
  | .cons e es, q => (e.tree T q).pushNode .k_comma (Node.new (tokenAt T (q + e.words.length)) .Symbol) ::
      es.trees T (q + e.words.length + 1)
  | .last e t, q => [t.tree T (e.tree T q) (q + e.words.length)]
  | .more e t es, q => (t.tree T (e.tree T q) (q + e.words.length)).pushNode .k_comma
      (Node.new (tokenAt T (q + (e.words ++ t.words).length)) .Symbol) :: es.trees T (q + (e.words ++ t.words).length + 1)
/-- The operands. -/
def Args.operands (T : List Token) : Args → List Operand
  | .nil => []
  | .cons es as => ⟨es.words.length, es.trees T⟩ :: as.operands T
end

/-- `SET x = y`. -/
def Shape.set : Shape where
  items := [.tok "SET".toList, .sub loosest]
  node := (Form.new 0 .SetStatement).push .k_expr (.sub 1)

/-- `ASSERT x`. -/
def Shape.assert : Shape where
  items := [.tok "ASSERT".toList, .sub loosest]
  node := (Form.new 0 .AssertStatement).push .k_expr (.sub 1)

/-- `EXECUTE IMMEDIATE x`. -/
def Shape.execute : Shape where
  items := [.tok "EXECUTE".toList, .tok "IMMEDIATE".toList, .sub loosest]
  node := ((Form.new 0 .ExecuteStatement).push .k_immediate (.new 1 .Keyword)).push .k_sql_expr (.sub 2)

/-- `CALL f(x, y)`. -/
def Shape.callStatement : Shape where
  items := [.tok "CALL".toList, .name, .tok "(".toList, .list .plain, .tok ")".toList]
  node := (Form.new 0 .CallStatement).push .k_procedure
    ((((Form.new 2 .CallingFunction).push .k_func (.new 1 .Identifier)).pushList .k_args 3).push .k_rparen (.new 4 .Symbol))

/-- One word. -/
def Shape.word (w : Str) (ty : NodeType) : Shape where
  items := [.tok w]
  node := Form.new 0 ty

/-- `BREAK l`, where `l` is the label of a loop. -/
def Shape.jump (w : Str) : Shape where
  items := [.tok w, .name]
  node := (Form.new 0 .BreakContinueStatement).push .k_label (.new 1 .Identifier)

/-- `DELETE t` or `DELETE FROM t`. -/
def Shape.delete (fromWord : Bool) (t : Table) : Shape :=
  if fromWord then
    { items := [.tok "DELETE".toList, .tok "FROM".toList] ++ t.items
      node := ((Form.new 0 .DeleteStatement).push .k_from (.new 1 .Keyword)).push .k_table_name (t.node 2) }
  else
    { items := .tok "DELETE".toList :: t.items
      node := (Form.new 0 .DeleteStatement).push .k_table_name (t.node 1) }

/-- `UPDATE t SET x = y, z = w`. -/
def Shape.update (t : Table) : Shape :=
  Shape.add { items := .tok "UPDATE".toList :: t.items, node := (Form.new 0 .UpdateStatement).push .k_table_name (t.node 1) }
    [.tok "SET".toList, .list .plain] fun n f =>
      f.push .k_set ((Form.new n .KeywordWithExprs).pushList .k_exprs (n + 1))

/-- `INSERT INTO t`. -/
def Shape.insert (t : Table) : Shape where
  items := [.tok "INSERT".toList, .tok "INTO".toList] ++ t.items
  node := ((Form.new 0 .InsertStatement).push .k_into (.new 1 .Keyword)).push .k_target_name (t.node 2)

/-- `(a, b)` behind the table of `INSERT`. -/
def Shape.columns (s : Shape) : Shape :=
  s.add [.tok "(".toList, .list .plain, .tok ")".toList] fun n f =>
    f.push .k_columns (((Form.new n .GroupedExprs).pushList .k_exprs (n + 1)).push .k_rparen (.new (n + 2) .Symbol))

/-- `VALUES (x, y)`. -/
def Shape.values (s : Shape) : Shape :=
  s.add [.tok "VALUES".toList, .tok "(".toList, .list .plain, .tok ")".toList] fun n f =>
    f.push .k_input ((Form.new n .KeywordWithExprs).push1 .k_exprs
      (((Form.new (n + 1) .GroupedExprs).pushList .k_exprs (n + 2)).push .k_rparen (.new (n + 3) .Symbol)))

/-- A query behind the table of `INSERT`. -/
def Shape.input (s q : Shape) : Shape := s.add q.items fun n f => f.push .k_input (q.node.shift n)

/-- `DECLARE x DEFAULT y`. -/
def Shape.declare : Shape where
  items := [.tok "DECLARE".toList, .name, .tok "DEFAULT".toList, .sub loosest]
  node := ((Form.new 0 .DeclareStatement).push1 .k_idents (.new 1 .Identifier)).push .k_default
    ((Form.new 2 .KeywordWithExpr).push .k_expr (.sub 3))

/-- `TRUNCATE TABLE t`. -/
def Shape.truncate (t : Table) : Shape where
  items := [.tok "TRUNCATE".toList, .tok "TABLE".toList] ++ t.items
  node := ((Form.new 0 .TruncateStatement).push .k_table (.new 1 .Keyword)).push .k_table_name (t.node 2)

/-- `DROP TABLE t`. -/
def Shape.drop (w : Str) (t : Table) : Shape where
  items := [.tok "DROP".toList, .tok w] ++ t.items
  node := ((Form.new 0 .DropStatement).push .k_what (.new 1 .Keyword)).push .k_ident (t.node 2)

/-- `DROP TABLE IF EXISTS t`. -/
def Shape.dropIf (w : Str) (t : Table) : Shape where
  items := [.tok "DROP".toList, .tok w, .tok "IF".toList, .tok "EXISTS".toList] ++ t.items
  node := (((Form.new 0 .DropStatement).push .k_what (.new 1 .Keyword)).push2 .k_if_exists (.new 2 .Keyword) (.new 3 .Keyword)).push
    .k_ident (t.node 4)

/-- `CREATE TABLE t AS SELECT x`. -/
def Shape.createAs (w : Str) (t : Table) (q : Shape) : Shape :=
  let s : Shape := ⟨[.tok "CREATE".toList, .tok w] ++ t.items,
    ((Form.new 0 .CreateTableStatement).push .k_what (.new 1 .Keyword)).push .k_ident (t.node 2), 0⟩
  s.add (.tok "AS".toList :: q.items) fun n f =>
    f.push .k_as ((Form.new n .KeywordWithStatement).push .k_stmt (q.node.shift (n + 1)))

/-- The shapes of statements, without the semicolon. -/
def statements : List Shape :=
  queries ++ setQueries ++ [.set, .assert, .execute, .callStatement,
    .word "RETURN".toList .SingleTokenStatement, .word "BREAK".toList .BreakContinueStatement,
    .word "CONTINUE".toList .BreakContinueStatement, .word "LEAVE".toList .BreakContinueStatement,
    .word "ITERATE".toList .BreakContinueStatement, .jump "BREAK".toList, .jump "CONTINUE".toList, .jump "LEAVE".toList,
    .jump "ITERATE".toList, .word "COMMIT".toList .TransactionStatement,
    .word "ROLLBACK".toList .TransactionStatement, .declare] ++
  [Table.name, .field].flatMap fun t => [(Shape.delete true t).where, (Shape.delete false t).where,
    (Shape.update t).where, (Shape.insert t).values, (Shape.insert t).columns.values, .truncate t,
    .drop "TABLE".toList t, .drop "VIEW".toList t, .dropIf "TABLE".toList t, .dropIf "VIEW".toList t] ++
    (Shape.select :: (Shape.select.from .name).clauses ++ setQueries.take 3 ++ withQueries.take 4).flatMap fun q =>
      [(Shape.insert t).input q, (Shape.insert t).columns.input q, .createAs "TABLE".toList t q]

/-- A statement. -/
structure Stmt where
  shape : Shape
  args : Args

/-- The words, with the semicolon. -/
def Stmt.words (s : Stmt) : List Str := weave s.shape.items s.args.words ++ [";".toList]

/-- The operands fit. -/
def Stmt.Ok (U : Unicode) (s : Stmt) : Prop := s.shape ∈ statements ∧ s.args.Ok U (places s.shape.items)

/-- The tree of a statement whose first token is at `q`. -/
def Stmt.tree (T : List Token) (s : Stmt) (q : Nat) : Node :=
  (s.shape.node.tree T (Node.empty .Unknown) (parts s.shape.items (s.args.operands T) q)).pushNode .k_semicolon
    (Node.new (tokenAt T (q + (weave s.shape.items s.args.words).length)) .Symbol)

/-- The trees of statements. -/
def scriptTrees (T : List Token) : List Stmt → Nat → List Node
  | [], _ => []
  | s :: ss, q => s.tree T q :: scriptTrees T ss (q + s.words.length)

end Verif.Spec
