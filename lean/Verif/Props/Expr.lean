import Verif.Proofs.ExprText
import Verif.Proofs.ExprDec
/-!
The trees of scripts with operator expressions are determined (C48).  Spec/Expr.lean says how expressions are written, where
parentheses are needed, and which tree each expression stands for.
-/
namespace Verif.Props
open Verif.Spec

/-- C48: if the tokens of a text are the words of statements whose expressions have the parentheses they need, then `parse`
gives the trees of these statements. -/
theorem C48_trees_determined (U : Unicode) (hU : U.Lawful) (code : Str) (body : List Token) (ss : List Stmt)
    (htok : tokenize U code = .ok (body ++ [Token.eof])) (hwords : body.map (·.literal) = ss.flatMap Stmt.words)
    (hok : ∀ s ∈ ss, s.Ok U) :
    parse U code = .ok (scriptTrees (body ++ [Token.eof]) ss 0 ++ [Node.empty .EOF]) := by
  unfold parse
  rw [htok]
  exact Sym.parse_script hU hok hwords (Lex.tokenize_apart hU htok)

/-- C48, from the statements to the text: however the words of statements are separated by white space, `parse` gives the trees of
these statements.  The strings among the words must end where they are closed. -/
theorem C48_every_script (U : Unicode) (hU : U.Lawful) (ss : List Stmt) (hok : ∀ s ∈ ss, s.Ok U)
    (hstr : ∀ l ∈ ss.flatMap Stmt.words, ∀ q body, (q = '"' ∨ q = '\'') → l = q :: (body ++ [q]) → QuotedOnce q l body)
    (gaps : List Str) (hlen : gaps.length = (ss.flatMap Stmt.words).length + 1) (hws : ∀ g ∈ gaps, AllWs g)
    (hsep : ∀ g ∈ gaps.tail.dropLast, g ≠ []) :
    ∃ body, tokenize U (interleave gaps (ss.flatMap Stmt.words)) = .ok (body ++ [Token.eof]) ∧
      body.map (·.literal) = ss.flatMap Stmt.words ∧
      parse U (interleave gaps (ss.flatMap Stmt.words)) = .ok (scriptTrees (body ++ [Token.eof]) ss 0 ++ [Node.empty .EOF]) := by
  have hg : ∀ l ∈ ss.flatMap Stmt.words, Sym.Good U l := by
    intro l hl
    obtain ⟨s, h1, h2⟩ := List.mem_flatMap.1 hl
    exact Sym.good_stmt hU (hok s h1) l h2 (hstr l hl)
  obtain ⟨body, h1, h2⟩ := (C43_tokens_exact U hU (interleave gaps (ss.flatMap Stmt.words)) (ss.flatMap Stmt.words)).2
    ⟨⟨gaps, Sym.tokenization hlen hws hsep hg⟩, Sym.head_stmt hok⟩
  exact ⟨body, h1, h2, C48_trees_determined U hU _ body ss h1 h2 hok⟩

/-- The operands of a binary operator. -/
def Args.just (e : Ex) : Args := .cons (.one e) .nil

/-- `x op y`. -/
def Ex.binary (x : Ex) (op : Str × Nat) (y : Ex) : Ex := .post x (.binary op) (Args.just y)

theorem binary_mem {op : Str × Nat} (h : op ∈ binaryOps) : Shape.binary op ∈ postfixes :=
  List.mem_append_right _ (List.mem_map_of_mem h)

theorem binary_noCall {op : Str × Nat} (h : op ∈ binaryOps) : ¬ (Shape.binary op = .call ∨ Shape.binary op = .call0) := by
  have : ∀ op ∈ binaryOps, ¬ (Shape.binary op = .call ∨ Shape.binary op = .call0) := by decide
  exact this op h

theorem binary_level : ∀ op ∈ binaryOps, op.2 < loosest := by decide

/-- The node of `x op y`; the operator is the token `t`. -/
def binaryNode (t : Token) (x y : Node) : Node := ((Node.new t .BinaryOperator).pushNode .k_left x).pushNode .k_right y

/-- C48, in particular: of two binary operators the one with the smaller level takes the operand between them, and of two with
the same level the first one. -/
theorem C48_two_operators (U : Unicode) (hU : U.Lawful) (code : Str) (a b c : Str) (ta tb tc : NodeType)
    (op1 op2 : Str × Nat) (t0 t1 t2 t3 t4 t5 t6 : Token)
    (htok : tokenize U code = .ok [t0, t1, t2, t3, t4, t5, t6, Token.eof])
    (hwords : [t0, t1, t2, t3, t4, t5, t6].map (·.literal) = ["SELECT".toList, a, op1.1, b, op2.1, c, ";".toList])
    (ha : AtomIs U a ta) (hb : AtomIs U b tb) (hc : AtomIs U c tc) (h1 : op1 ∈ binaryOps) (h2 : op2 ∈ binaryOps) :
    parse U code = .ok [((Node.new t0 .SelectStatement).pushVec .k_exprs [
      if op1.2 ≤ op2.2 then binaryNode t4 (binaryNode t2 (Node.new t1 ta) (Node.new t3 tb)) (Node.new t5 tc)
      else binaryNode t2 (Node.new t1 ta) (binaryNode t4 (Node.new t3 tb) (Node.new t5 tc))]).pushNode
        .k_semicolon (Node.new t6 .Symbol), Node.empty .EOF] := by
  have l1 := binary_level op1 h1
  have l2 := binary_level op2 h2
  have hsel : Shape.select ∈ statements := by decide +kernel
  have hargs : ∀ (e : Ex) (op : Str × Nat), e.Ok U op.2 → (Args.just e).Ok U (places (Shape.binary op).items) :=
    fun e op h => ⟨⟨h, fun h => (by cases h), fun f h => (by cases h)⟩, trivial⟩
  split
  · rename_i hle
    have := C48_trees_determined U hU code [t0, t1, t2, t3, t4, t5, t6]
      [⟨.select, Args.just (Ex.binary (Ex.binary (.atom a ta) op1 (.atom b tb)) op2 (.atom c tc))⟩] htok hwords (by
        intro s hs
        cases List.mem_singleton.1 hs
        refine ⟨hsel, ⟨binary_mem h2, l2, ⟨binary_mem h1, l1, ha, trivial, fun h => absurd h (binary_noCall h1),
          hargs _ op1 hb⟩, ?_, fun h => absurd h (binary_noCall h2), hargs _ op2 hc⟩, trivial⟩
        exact ⟨hle, trivial⟩)
    exact this
  · rename_i hlt
    have := C48_trees_determined U hU code [t0, t1, t2, t3, t4, t5, t6]
      [⟨.select, Args.just (Ex.binary (.atom a ta) op1 (Ex.binary (.atom b tb) op2 (.atom c tc)))⟩] htok hwords (by
        intro s hs
        cases List.mem_singleton.1 hs
        refine ⟨hsel, ⟨binary_mem h1, l1, ha, trivial, fun h => absurd h (binary_noCall h1), hargs _ op1 ?_⟩, trivial⟩
        exact ⟨binary_mem h2, (show op2.2 < op1.2 by omega), hb, trivial, fun h => absurd h (binary_noCall h2), hargs _ op2 hc⟩)
    exact this

/-! Scripts that meet the hypotheses. -/

/-- A name. -/
def nm (c : Char) : Ex := .atom [c] .Identifier
/-- A name in a list of operands. -/
def nms (c : Char) : Exs := .one (nm c)
/-- `SELECT -a.o * (c + d) BETWEEN e AND f(g, h)[i], NOT (j, k) IN ([]) OR l IS NOT DISTINCT FROM m;` -/
def sample1 : Stmt := ⟨.select, .cons (.cons
  (.post (.post (.post (.pre (.unary ("-".toList, 102)) (Args.just (nm 'a'))) .field (Args.just (nm 'o')))
      (.binary ("*".toList, 103))
      (Args.just (.pre .paren (Args.just (.post (nm 'c') (.binary ("+".toList, 104)) (Args.just (nm 'd')))))))
    .between (.cons (.one (nm 'e')) (Args.just (.post (.post (nm 'f') .call (.cons (.cons (nm 'g') (.one (nm 'h'))) .nil))
      .index (Args.just (nm 'i'))))))
  (.one (.post (.pre (.unary ("NOT".toList, 110)) (Args.just (.post
      (.pre .tuple (.cons (.cons (nm 'j') (.one (nm 'k'))) .nil)) .inList (Args.just (.pre .noArray .nil)))))
    (.binary ("OR".toList, 112)) (Args.just (.post (nm 'l') .isNotDistinct (Args.just (nm 'm'))))))) .nil⟩
/-- `SET n = TRUE;` -/
def sample2 : Stmt := ⟨.set, Args.just (.post (nm 'n') (.binary ("=".toList, 109)) (Args.just (.atom "TRUE".toList .BooleanLiteral)))⟩

/-- `f(*)`. -/
def count : Ex := .post (nm 'f') .call (Args.just (.pre .star .nil))
/-- `SELECT a AS x, f(*) y FROM t AS u JOIN v AS w ON u.k = w.k WHERE a IN (SELECT c FROM d.t) GROUP BY a, e HAVING f(*) > 1
ORDER BY x DESC, y LIMIT 9;` -/
def sample3 : Stmt := ⟨(Shape.select.from (.join (.as .name) (.as .name))).where.groupBy.having.orderBy.limit,
  .cons (.more (nm 'a') (.named ['x']) (.last count (.short ['y']))) <|
  .cons (nms 't') <| .cons (nms 'u') <| .cons (nms 'v') <| .cons (nms 'w') <|
  .cons (.one (.post (.post (nm 'u') .field (Args.just (nm 'k'))) (.binary ("=".toList, 109))
    (Args.just (.post (nm 'w') .field (Args.just (nm 'k')))))) <|
  .cons (.one (.post (nm 'a') (.inSubquery (Shape.select.from .field)) (.cons (nms 'c') (.cons (nms 'd') (.cons (nms 't') .nil))))) <|
  .cons (.cons (nm 'a') (nms 'e')) <|
  .cons (.one (.post count (.binary (">".toList, 109)) (Args.just (.atom ['1'] .NumericLiteral)))) <|
  .cons (.more (nm 'x') (.sorted "DESC".toList) (nms 'y')) <|
  .cons (.one (.atom ['9'] .NumericLiteral)) .nil⟩

/-- `CASE WHEN g THEN c ELSE d END` -/
def sampleCase : Shape := caseShapes.getD 1 .paren
/-- `UPDATE t SET a = CASE WHEN g THEN c ELSE d END WHERE e;` -/
def sample4 : Stmt := ⟨(Shape.update .name).where,
  .cons (nms 't') <|
  .cons (.one (.post (nm 'a') (.binary ("=".toList, 109))
    (Args.just (.pre sampleCase (.cons (nms 'g') (.cons (nms 'c') (.cons (nms 'd') .nil))))))) <|
  .cons (nms 'e') .nil⟩
/-- `INSERT INTO d.t (a, g) SELECT c, 'x' FROM e;` -/
def sample5 : Stmt := ⟨(Shape.insert .field).columns.input (Shape.select.from .name),
  .cons (nms 'd') <| .cons (nms 't') <| .cons (.cons (nm 'a') (nms 'g')) <|
  .cons (.cons (nm 'c') (.one (.atom "'x'".toList .StringLiteral))) <| .cons (nms 'e') .nil⟩
/-- `DROP TABLE IF EXISTS d.t;` -/
def sample6 : Stmt := ⟨.dropIf "TABLE".toList .field, .cons (nms 'd') (.cons (nms 't') .nil)⟩

/-- `SELECT a UNION ALL SELECT c INTERSECT DISTINCT SELECT d FROM t;` -/
def sample7 : Stmt := ⟨(Shape.select.setOp "UNION".toList "ALL".toList .select).setOp "INTERSECT".toList "DISTINCT".toList
  (Shape.select.from .name), .cons (nms 'a') (.cons (nms 'c') (.cons (nms 'd') (.cons (nms 't') .nil)))⟩
/-- `CREATE TABLE t AS WITH w AS (SELECT a) SELECT (WITH u AS (SELECT c) SELECT d FROM u);` -/
def sample8 : Stmt := ⟨.createAs "TABLE".toList .name (Shape.select.with .select), .cons (nms 't') <| .cons (nms 'w') <|
  .cons (nms 'a') <| .cons (.one (.pre (.subquery (Shape.select.with (Shape.select.from .name)))
    (.cons (nms 'u') (.cons (nms 'c') (.cons (nms 'd') (.cons (nms 'u') .nil)))))) .nil⟩

/-- Scripts and their statements. -/
def samples : List (Str × List Stmt) := [
  ("SELECT -a.o * (c + d) BETWEEN e AND f(g, h)[i], NOT (j, k) IN ([]) OR l IS NOT DISTINCT FROM m; SET n = TRUE;".toList,
    [sample1, sample2]),
  (("SELECT a AS x, f(*) y FROM t AS u JOIN v AS w ON u.k = w.k WHERE a IN (SELECT c FROM d.t) GROUP BY a, e " ++
      "HAVING f(*) > 1 ORDER BY x DESC, y LIMIT 9;").toList, [sample3]),
  ("UPDATE t SET a = CASE WHEN g THEN c ELSE d END WHERE e; INSERT INTO d.t (a, g) SELECT c, 'x' FROM e; DROP TABLE IF EXISTS d.t;".toList,
    [sample4, sample5, sample6]),
  (("SELECT a UNION ALL SELECT c INTERSECT DISTINCT SELECT d FROM t; " ++
      "CREATE TABLE t AS WITH w AS (SELECT a) SELECT (WITH u AS (SELECT c) SELECT d FROM u);").toList, [sample7, sample8])]

theorem samples_ok : ∀ p ∈ samples, ∀ s ∈ p.2, s.Ok Unicode.sample := by
  intro p hp s hs
  have hB : ∀ p ∈ samples, ∀ s ∈ p.2, (statements.contains s.shape && s.args.okB Unicode.sample (places s.shape.items)) = true := by
    decide +kernel
  have := hB p hp s hs
  simp only [Bool.and_eq_true, List.contains_iff_mem] at this
  exact ⟨this.1, s.args.okB_sound this.2⟩

/-- The hypotheses of C48 are met. -/
theorem samples_tokens : ∀ p ∈ samples, ∃ body, tokenize Unicode.sample p.1 = .ok (body ++ [Token.eof]) ∧
    body.map Token.literal = p.2.flatMap Stmt.words := by
  intro p hp
  have h : ∀ p ∈ samples, (match tokenize Unicode.sample p.1 with
    | .ok toks => decide (toks = toks.dropLast ++ [Token.eof] ∧
        toks.dropLast.map Token.literal = p.2.flatMap Stmt.words)
    | _ => false) = true := by decide +kernel
  have h := h p hp
  split at h
  · rename_i toks ht
    have := of_decide_eq_true h
    exact ⟨toks.dropLast, by rw [ht, ← this.1], this.2⟩
  · cases h

example : ∀ p ∈ samples, ∃ T, parse Unicode.sample p.1 = .ok (scriptTrees T p.2 0 ++ [Node.empty .EOF]) := by
  intro p hp
  obtain ⟨body, h1, h2⟩ := samples_tokens p hp
  exact ⟨_, C48_trees_determined _ Unicode.sample_lawful _ _ _ h1 h2 (samples_ok p hp)⟩

/-- Simple strings. -/
theorem closed_of {ls : List Str} (h : ls.all (fun l => match l with
    | q :: cs => if q = '"' ∨ q = '\'' then !cs.dropLast.contains q && !oddBackslashes cs.dropLast else true
    | [] => true) = true) :
    ∀ l ∈ ls, ∀ q body, (q = '"' ∨ q = '\'') → l = q :: (body ++ [q]) → QuotedOnce q l body := by
  intro l hl q body hq he
  have := List.all_eq_true.1 h l hl
  rw [he] at this
  simp only [if_pos hq, List.dropLast_concat, Bool.and_eq_true, Bool.not_eq_true'] at this
  refine ⟨he, this.2, ?_⟩
  rintro x y rfl
  have h1 := this.1
  simp at h1

/-- A case of C48_every_script: a new line after each word of `INSERT INTO d.t (a, g) SELECT c, 'x' FROM e;`, twice. -/
example : ∃ body, parse Unicode.sample (interleave ([] :: List.replicate 34 "\n".toList) ([sample5, sample5].flatMap Stmt.words)) =
    .ok (scriptTrees (body ++ [Token.eof]) [sample5, sample5] 0 ++ [Node.empty .EOF]) := by
  obtain ⟨body, _, _, h⟩ := C48_every_script Unicode.sample Unicode.sample_lawful [sample5, sample5]
    (by
      intro s hs
      have : s = sample5 := by simpa using hs
      rw [this]
      exact samples_ok samples[2] (List.getElem_mem _) sample5 (show sample5 ∈ [sample4, sample5, sample6] by simp))
    (closed_of (by decide +kernel)) ([] :: List.replicate 34 "\n".toList) (by decide +kernel)
    (by unfold AllWs; decide) (by decide)
  exact ⟨body, h⟩

/-- A case of C48_two_operators: `SELECT a + c * 1;`. -/
example : AtomIs Unicode.sample "a".toList .Identifier ∧ AtomIs Unicode.sample "1".toList .NumericLiteral ∧
    ("+".toList, 104) ∈ binaryOps ∧ ("*".toList, 103) ∈ binaryOps :=
  ⟨atomB_sound (by decide +kernel), atomB_sound (by decide +kernel), by decide, by decide⟩

/-- The reason for `closed`: a direction of sorting after an expression that ends with an operand becomes a child of the operand,
not of the expression.  In `SELECT a FROM t ORDER BY a.c DESC;` it is a child of `c`. -/
theorem C48_direction_of_operand : ∃ s e by_ x c d, parse Unicode.sample "SELECT a FROM t ORDER BY a.c DESC;".toList = .ok [s, e] ∧
    childrenAt s .k_orderby = [by_] ∧ childrenAt by_ .k_exprs = [x] ∧ x.ty = .DotOperator ∧ childrenAt x .k_order = [] ∧
    childrenAt x .k_right = [c] ∧ childrenAt c .k_order = [d] ∧ d.tok.map Token.literal = some "DESC".toList := by
  have h : (match parse Unicode.sample "SELECT a FROM t ORDER BY a.c DESC;".toList with
    | .ok [s, _] => match childrenAt s .k_orderby with
      | [b] => match childrenAt b .k_exprs with
        | [x] => match childrenAt x .k_right with
          | [c] => match childrenAt c .k_order with
            | [d] => decide (x.ty = .DotOperator ∧ (childrenAt x .k_order).length = 0 ∧
                d.tok.map Token.literal = some "DESC".toList)
            | _ => false
          | _ => false
        | _ => false
      | _ => false
    | _ => false) = true := by decide +kernel
  split at h
  · rename_i s e hs
    split at h
    · rename_i b hb
      split at h
      · rename_i x hx
        split at h
        · rename_i c hc
          split at h
          · rename_i d hd
            have := of_decide_eq_true h
            exact ⟨s, e, b, x, c, d, hs, hb, hx, this.1, List.length_eq_zero_iff.1 this.2.1, hc, hd, this.2.2⟩
          · cases h
        · cases h
      · cases h
    · cases h
  · cases h

/-- The reason why no shape has `ORDER BY` or `LIMIT` behind a set operator: they become children of the last query, although they
are about the result of the set operator.  In `SELECT a UNION ALL SELECT c ORDER BY d;` the node of `ORDER` is a child of the right
operand. -/
theorem C48_order_of_last_query : ∃ s e r o, parse Unicode.sample "SELECT a UNION ALL SELECT c ORDER BY d;".toList = .ok [s, e] ∧
    s.ty = .SetOperator ∧ childrenAt s .k_orderby = [] ∧ childrenAt s .k_right = [r] ∧ r.ty = .SelectStatement ∧
    childrenAt r .k_orderby = [o] ∧ o.tok.map Token.literal = some "ORDER".toList := by
  have h : (match parse Unicode.sample "SELECT a UNION ALL SELECT c ORDER BY d;".toList with
    | .ok [s, _] => match childrenAt s .k_right with
      | [r] => match childrenAt r .k_orderby with
        | [o] => decide (s.ty = .SetOperator ∧ (childrenAt s .k_orderby).length = 0 ∧ r.ty = .SelectStatement ∧
            o.tok.map Token.literal = some "ORDER".toList)
        | _ => false
      | _ => false
    | _ => false) = true := by decide +kernel
  split at h
  · rename_i s e hs
    split at h
    · rename_i r hr
      split at h
      · rename_i o ho
        have := of_decide_eq_true h
        exact ⟨s, e, r, o, hs, this.1, List.length_eq_zero_iff.1 this.2.1, hr, this.2.2.1, ho, this.2.2.2⟩
      · cases h
    · cases h
  · cases h

end Verif.Props
