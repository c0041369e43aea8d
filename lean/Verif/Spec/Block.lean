import Verif.Spec.Expr
/-!
Scripts with statements that contain statements: how they are written, and the trees they stand for.  Nothing here mentions the
parser.
-/
namespace Verif.Spec

/-- `FOR x IN (SELECT y)`. -/
def Shape.for (s : Shape) : Shape where
  items := .tok "FOR".toList :: .name :: .tok "IN".toList :: .tok "(".toList :: s.items ++ [.tok ")".toList]
  node := ((Form.new 0 .ForStatement).push .k_ident (.new 1 .Identifier)).push .k_in
    ((Form.new 2 .KeywordWithGroupedXXX).push .k_group
      (((Form.new 3 .GroupedStatement).push .k_stmt (s.node.shift 4)).push .k_rparen (.new (s.items.length + 4) .Symbol)))

/-- With each of the queries. -/
def fors : List Shape := (subqueries ++ withQueries).map .for

/-- The label of a loop. -/
inductive Label
  | none
  /-- `l:` before the loop -/
  | lead (l : Str)
  /-- `l:` before the loop, and `m` after `END LOOP` -/
  | both (l m : Str)

/-- The words before the loop. -/
def Label.before : Label → List Str
  | .none => []
  | .lead l => [l, ":".toList]
  | .both l _ => [l, ":".toList]

/-- The words after the loop. -/
def Label.after : Label → List Str
  | .none => []
  | .lead _ => []
  | .both _ m => [m]

/-- Labels are names. -/
def Label.Ok (U : Unicode) : Label → Prop
  | .none => True
  | .lead l => AtomIs U l .Identifier
  | .both l m => AtomIs U l .Identifier ∧ AtomIs U m .Identifier

mutual
/-- A statement. -/
inductive Block
  /-- a statement without others in it -/
  | stmt (s : Stmt)
  /-- `LOOP … END LOOP;`, with or without a label -/
  | loop (n : Label) (b : Blocks)
  /-- `REPEAT … UNTIL e END REPEAT;`, with or without a label -/
  | rep (n : Label) (b : Blocks) (e : Ex)
  /-- `WHILE e DO … END WHILE;`, with or without a label -/
  | while (n : Label) (e : Ex) (b : Blocks)
  /-- `BEGIN … END;` -/
  | begin (b : Blocks)
  /-- `BEGIN … EXCEPTION WHEN ERROR THEN … END;` -/
  | catch (b h : Blocks)
  /-- `IF e THEN … ELSEIF … END IF;` -/
  | if (e : Ex) (b : Blocks) (br : Branches)
  /-- `IF e THEN … ELSEIF … ELSE … END IF;` -/
  | ifElse (e : Ex) (b : Blocks) (br : Branches) (c : Blocks)
  /-- `CASE e WHEN … END CASE;`, with or without `e` -/
  | case (e : Option Ex) (br : Branches)
  /-- `CASE e WHEN … ELSE … END CASE;`, with or without `e` -/
  | caseElse (e : Option Ex) (br : Branches) (c : Blocks)
  /-- `FOR x IN (…) DO … END FOR;`; the shape is that of the words before `DO` -/
  | for (s : Shape) (as : Args) (b : Blocks)
/-- Statements. -/
inductive Blocks
  | nil
  | cons (b : Block) (bs : Blocks)
/-- `ELSEIF e THEN …` or `WHEN e THEN …`, any number of times. -/
inductive Branches
  | nil
  | cons (e : Ex) (b : Blocks) (br : Branches)
end

/-- The words of an expression, if there is one. -/
def optWords : Option Ex → List Str
  | none => []
  | some e => e.words

mutual
/-- The words of a statement. -/
def Block.words : Block → List Str
  | .stmt s => s.words
  | .loop n b => n.before ++ ("LOOP".toList :: (b.words ++ ["END".toList, "LOOP".toList]) ++ (n.after ++ [";".toList]))
  | .rep n b e => n.before ++ ("REPEAT".toList :: (b.words ++ "UNTIL".toList :: (e.words ++ ["END".toList, "REPEAT".toList])) ++
      (n.after ++ [";".toList]))
  | .while n e b => n.before ++ ("WHILE".toList :: (e.words ++ "DO".toList :: (b.words ++ ["END".toList, "WHILE".toList])) ++
      (n.after ++ [";".toList]))
  | .begin b => "BEGIN".toList :: (b.words ++ ["END".toList, ";".toList])
  | .catch b h => "BEGIN".toList :: (b.words ++ "EXCEPTION".toList :: "WHEN".toList :: "ERROR".toList :: "THEN".toList ::
      (h.words ++ ["END".toList, ";".toList]))
  | .if e b br => "IF".toList :: (e.words ++ "THEN".toList :: (b.words ++ (br.words ++ ["END".toList, "IF".toList, ";".toList])))
  | .ifElse e b br c => "IF".toList :: (e.words ++ "THEN".toList :: (b.words ++ (br.words ++ "ELSE".toList ::
      (c.words ++ ["END".toList, "IF".toList, ";".toList]))))
  | .case e br => "CASE".toList :: (optWords e ++ (br.armWords ++ ["END".toList, "CASE".toList, ";".toList]))
  | .caseElse e br c => "CASE".toList :: (optWords e ++ (br.armWords ++ "ELSE".toList ::
      (c.words ++ ["END".toList, "CASE".toList, ";".toList])))
  | .for s as b => weave s.items as.words ++ "DO".toList :: (b.words ++ ["END".toList, "FOR".toList, ";".toList])
/-- The words of statements. -/
def Blocks.words : Blocks → List Str
  | .nil => []
  | .cons b bs => b.words ++ bs.words
/-- The words of branches of `IF`. -/
def Branches.words : Branches → List Str
  | .nil => []
  | .cons e b br => "ELSEIF".toList :: (e.words ++ "THEN".toList :: (b.words ++ br.words))
/-- The words of branches of `CASE`. -/
def Branches.armWords : Branches → List Str
  | .nil => []
  | .cons e b br => "WHEN".toList :: (e.words ++ "THEN".toList :: (b.words ++ br.armWords))
end

mutual
/-- The expressions have the parentheses they need, and `CASE` has a branch. -/
def Block.Ok (U : Unicode) : Block → Prop
  | .stmt s => s.Ok U
  | .loop n b => n.Ok U ∧ b.Ok U
  | .rep n b e => n.Ok U ∧ b.Ok U ∧ e.Ok U loosest
  | .while n e b => n.Ok U ∧ e.Ok U loosest ∧ b.Ok U
  | .begin b => b.Ok U
  | .catch b h => b.Ok U ∧ h.Ok U
  | .if e b br => e.Ok U loosest ∧ b.Ok U ∧ br.Ok U
  | .ifElse e b br c => e.Ok U loosest ∧ b.Ok U ∧ br.Ok U ∧ c.Ok U
  | .case e br => (∀ x, e = some x → x.Ok U loosest) ∧ br ≠ .nil ∧ br.Ok U
  | .caseElse e br c => (∀ x, e = some x → x.Ok U loosest) ∧ br ≠ .nil ∧ br.Ok U ∧ c.Ok U
  | .for s as b => s ∈ fors ∧ as.Ok U (places s.items) ∧ b.Ok U
/-- The same for statements. -/
def Blocks.Ok (U : Unicode) : Blocks → Prop
  | .nil => True
  | .cons b bs => b.Ok U ∧ bs.Ok U
/-- The same for branches. -/
def Branches.Ok (U : Unicode) : Branches → Prop
  | .nil => True
  | .cons e b br => e.Ok U loosest ∧ b.Ok U ∧ br.Ok U
end

section
variable (T : List Token)

/-- A node without children for the token at `q`. -/
def leaf (ty : NodeType) (q : Nat) : Node := Node.new (tokenAt T q) ty

/-- The node of the word at `q` with statements. -/
def bodyNode (ty : NodeType) (q : Nat) (ns : List Node) : Node := (leaf T ty q).pushVec .k_stmts ns

/-- `END` and the word after it as the child `k`, and the semicolon; `END` is at `q`. -/
def endNode (n : Node) (k : Key) (q : Nat) : Node :=
  (n.pushVec k [leaf T .Keyword q, leaf T .Keyword (q + 1)]).pushNode .k_semicolon (leaf T .Symbol (q + 2))

/-- `END`, which is at `e`, and the word after it as the child `k`. -/
def closeNode (n : Node) (k : Key) (e : Nat) : Node := n.pushVec k [leaf T .Keyword e, leaf T .Keyword (e + 1)]

/-- The label and the semicolon as children: the statement begins at `q`, and what is after `END LOOP` is at `e`. -/
def labelNode (n : Node) (q e : Nat) : Label → Node
  | .none => n.pushNode .k_semicolon (leaf T .Symbol e)
  | .lead _ => ((n.pushNode .k_leading_label (leaf T .Identifier q)).pushNode .k_colon (leaf T .Symbol (q + 1))).pushNode
      .k_semicolon (leaf T .Symbol e)
  | .both _ _ => (((n.pushNode .k_leading_label (leaf T .Identifier q)).pushNode .k_colon (leaf T .Symbol (q + 1))).pushNode
      .k_trailing_label (leaf T .Identifier e)).pushNode .k_semicolon (leaf T .Symbol (e + 1))

/-- `LOOP` with its statements. -/
def loopNode (q : Nat) (ns : List Node) (e : Nat) : Node := closeNode T (bodyNode T .LoopStatement q ns) .k_end_loop e

/-- `REPEAT` with its statements and its condition; `UNTIL` is at `u`. -/
def repNode (q : Nat) (ns : List Node) (u : Nat) (c : Node) (e : Nat) : Node :=
  closeNode T ((bodyNode T .RepeatStatement q ns).pushNode .k_until ((leaf T .KeywordWithExpr u).pushNode .k_expr c)) .k_end_repeat e

/-- `WHILE` with its condition and its statements; `DO` is at `d`. -/
def whileNode (q : Nat) (c : Node) (d : Nat) (ns : List Node) (e : Nat) : Node :=
  closeNode T (((leaf T .WhileStatement q).pushNode .k_condition c).pushNode .k_do (bodyNode T .KeywordWithStatements d ns))
    .k_end_while e

/-- The children of a vector, if there are any. -/
def pushSome (n : Node) (k : Key) (ns : List Node) : Node := if ns = [] then n else n.pushVec k ns

/-- `CASE` and the expression after it. -/
def caseHead (q : Nat) : Option Ex → Node
  | none => leaf T .CaseStatement q
  | some e => (leaf T .CaseStatement q).pushNode .k_expr (e.tree T (q + 1))

mutual
/-- The tree of a statement whose first token is at `q`. -/
def Block.tree : Block → Nat → Node
  | .stmt s, q => s.tree T q
  | .loop n b, q =>
    let p := q + n.before.length
    let e := p + 1 + b.words.length
    labelNode T (loopNode T p (b.trees (p + 1)) e) q (e + 2) n
  | .rep n b c, q =>
    let p := q + n.before.length
    let u := p + 1 + b.words.length
    let e := u + 1 + c.words.length
    labelNode T (repNode T p (b.trees (p + 1)) u (c.tree T (u + 1)) e) q (e + 2) n
  | .while n c b, q =>
    let p := q + n.before.length
    let d := p + 1 + c.words.length
    let e := d + 1 + b.words.length
    labelNode T (whileNode T p (c.tree T (p + 1)) d (b.trees (d + 1)) e) q (e + 2) n
  | .begin b, q =>
    let d := q + 1 + b.words.length
    ((pushSome (leaf T .BeginStatement q) .k_stmts (b.trees (q + 1))).pushNode .k_end (leaf T .Keyword d)).pushNode .k_semicolon
      (leaf T .Symbol (d + 1))
  | .catch b h, q =>
    let x := q + 1 + b.words.length
    let d := x + 4 + h.words.length
    ((((pushSome (leaf T .BeginStatement q) .k_stmts (b.trees (q + 1))).pushVec .k_exception_when_error
      [leaf T .Keyword x, leaf T .Keyword (x + 1), leaf T .Keyword (x + 2)]).pushNode .k_then
      (bodyNode T .KeywordWithStatements (x + 3) (h.trees (x + 4)))).pushNode .k_end (leaf T .Keyword d)).pushNode .k_semicolon
      (leaf T .Symbol (d + 1))
  | .if e b br, q =>
    let h := q + 1 + e.words.length
    let x := h + 1 + b.words.length
    endNode T (pushSome (((leaf T .IfStatement q).pushNode .k_condition (e.tree T (q + 1))).pushNode .k_then
      (bodyNode T .KeywordWithStatements h (b.trees (h + 1)))) .k_elseifs (br.trees x)) .k_end_if (x + br.words.length)
  | .ifElse e b br c, q =>
    let h := q + 1 + e.words.length
    let x := h + 1 + b.words.length
    let y := x + br.words.length
    endNode T ((pushSome (((leaf T .IfStatement q).pushNode .k_condition (e.tree T (q + 1))).pushNode .k_then
      (bodyNode T .KeywordWithStatements h (b.trees (h + 1)))) .k_elseifs (br.trees x)).pushNode .k_else
      (bodyNode T .KeywordWithStatements y (c.trees (y + 1)))) .k_end_if (y + 1 + c.words.length)
  | .case e br, q =>
    let x := q + 1 + (optWords e).length
    endNode T ((caseHead T q e).pushVec .k_arms (br.arms x)) .k_end_case (x + br.armWords.length)
  | .caseElse e br c, q =>
    let x := q + 1 + (optWords e).length
    let y := x + br.armWords.length
    endNode T ((caseHead T q e).pushVec .k_arms (br.arms x ++ [bodyNode T .CaseStatementArm y (c.trees (y + 1))])) .k_end_case
      (y + 1 + c.words.length)
  | .for s as b, q =>
    let d := q + (weave s.items as.words).length
    endNode T ((s.node.tree T (Node.empty .Unknown) (parts s.items (as.operands T) q)).pushNode .k_do
      (bodyNode T .KeywordWithStatements d (b.trees (d + 1)))) .k_end_for (d + 1 + b.words.length)
/-- The trees of statements. -/
def Blocks.trees : Blocks → Nat → List Node
  | .nil, _ => []
  | .cons b bs, q => b.tree q :: bs.trees (q + b.words.length)
/-- The nodes of branches of `IF`; the first `ELSEIF` is at `q`. -/
def Branches.trees : Branches → Nat → List Node
  | .nil, _ => []
  | .cons e b br, q =>
    let h := q + 1 + e.words.length
    (((leaf T .ElseIfClause q).pushNode .k_condition (e.tree T (q + 1))).pushNode .k_then
      (bodyNode T .KeywordWithStatements h (b.trees (h + 1)))) :: br.trees (h + 1 + b.words.length)
/-- The same for `CASE`; the first `WHEN` is at `q`. -/
def Branches.arms : Branches → Nat → List Node
  | .nil, _ => []
  | .cons e b br, q =>
    let h := q + 1 + e.words.length
    (((leaf T .CaseStatementArm q).pushNode .k_expr (e.tree T (q + 1))).pushNode .k_then (leaf T .Keyword h)).pushVec .k_stmts
      (b.trees (h + 1)) :: br.arms (h + 1 + b.words.length)
end
end

end Verif.Spec
