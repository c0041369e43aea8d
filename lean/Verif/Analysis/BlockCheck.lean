import Verif.Analysis.ExprCheck
import Verif.Spec.Block
/-! The statements of Spec/Block.lean as the symbolic evaluator sees them. -/
namespace Verif.Sym
open Spec

/-- A word. -/
def wd (l : Str) : Cell := ⟨[.lit l], none⟩
/-- A token of which nothing is known. -/
def bare : Cell := ⟨[], none⟩
/-- A condition. -/
def condC (i : Nat) : List Cell := [⟨firsts, some (.expr loosest (some false) i)⟩, bare]
/-- A word with statements. -/
def bodyC (l : Str) (ks : List Kw) (i : Nat) : List Cell := [⟨[.lit l], some (.body ks i)⟩, bare]
/-- A window. -/
def win (cs : List Cell) : Window := ⟨cs, none, false, 0, 0⟩

/-- `END` and the word after it, and the semicolon. -/
def endTerm (n : Term) (k : Key) (c : Nat) : Term :=
  .push (.pushVec n k (.snoc (.snoc .nil (.new c .Keyword)) (.new (c + 1) .Keyword))) .k_semicolon (.new (c + 2) .Symbol)

/-- What is after a loop, and whether the semicolon belongs to its node. -/
def loopEnds : List (Bool × Base) := [(true, .lit ";".toList), (false, .lit ";".toList), (false, .other .Identifier)]
/-- `END LOOP` and what is after it. -/
def endC (l : Str) (x : Bool × Base) : List Cell := [wd "END".toList, wd l, ⟨[x.2], none⟩]
/-- A semicolon. -/
def semiTerm (n : Term) (e : Nat) (x : Bool) : Term := if x then .push n .k_semicolon (.new e .Symbol) else n
/-- `END` and the word after it. -/
def closeTerm (n : Term) (k : Key) (c : Nat) : Term := .pushVec n k (.snoc (.snoc .nil (.new c .Keyword)) (.new (c + 1) .Keyword))
/-- A whole statement. -/
def checkWhole (w : Window) (t : Term) (x : Bool) : Bool :=
  match acall w 4 .parse_statement [.bool x] 0 with
  | some (.node t', i) => t'.norm == semiTerm t (w.cells.length - 1) x && i + (if x then 1 else 2) == w.cells.length
  | _ => false

/-- `LOOP … END LOOP` -/
def wLoop (x : Bool × Base) : Window := win (bodyC "LOOP".toList [.END] 1 ++ endC "LOOP".toList x)
/-- Its node. -/
def tLoop : Term := closeTerm (.setType (.hole 1) .LoopStatement) .k_end_loop 2
/-- `REPEAT … UNTIL e END REPEAT` -/
def wRep (x : Bool × Base) : Window := win (bodyC "REPEAT".toList [.UNTIL] 1 ++ wd "UNTIL".toList :: condC 2 ++ endC "REPEAT".toList x)
/-- Its node. -/
def tRep : Term := closeTerm (.push (.setType (.hole 1) .RepeatStatement) .k_until (.push (.new 2 .KeywordWithExpr) .k_expr (.hole 2)))
  .k_end_repeat 5
/-- `WHILE e DO … END WHILE` -/
def wWhile (x : Bool × Base) : Window := win (wd "WHILE".toList :: condC 1 ++ bodyC "DO".toList [.END] 2 ++ endC "WHILE".toList x)
/-- Its node. -/
def tWhile : Term := closeTerm (.push (.push (.new 0 .WhileStatement) .k_condition (.hole 1)) .k_do (.hole 2)) .k_end_while 5

/-- `parse_labeled_statement` after the statement. -/
def labelPost : Cmd := seqR (seqR (seqR (seqR (seqR (seqR Program.parse_labeled_statement.body)))))
/-- Its variables. -/
def labelEnv : AEnv := abind [v_stmt, v_label, v_colon, v_semicolon] [.node (.hole 0), .node (.hole 1), .node (.hole 2), .bool true]
/-- What is after the statement. -/
def wLabel (m : Bool) : Window := win (bare :: (if m then [⟨[.other .Identifier], none⟩, wd ";".toList] else [wd ";".toList]))
/-- The label as children. -/
def tLabel (m : Bool) : Term :=
  let n := .push (.push (.hole 0) .k_leading_label (.hole 1)) .k_colon (.hole 2)
  if m then .push (.push n .k_trailing_label (.new 1 .Identifier)) .k_semicolon (.new 2 .Symbol)
  else .push n .k_semicolon (.new 1 .Symbol)

/-- A statement that is parsed by one call of `f`; `next` is what may be its second token. -/
def wCall (b : Base) (next : List Base) : Window := win [⟨[b], none⟩, ⟨next, some (.body [] 0)⟩, bare]
/-- This call. -/
def oneCall (f : Fn) : ACall := fun g args i => if g = f ∧ args = [.bool true] ∧ i = 0 then some (.node (.hole 1), 2) else none
/-- `parse_statement` makes this call. -/
def checkCall (b : Base) (next : List Base) (f : Fn) : Bool :=
  match aexec (wCall b next) (oneCall f) Program.parse_statement.body ⟨0, abind Program.parse_statement.params [.bool true]⟩ with
  | some (.ret (.node (.hole 1)), s) => s.pos == 2
  | _ => false

/-- The words between the parts of `IF`. -/
def ifStops : List Kw := [.ELSEIF, .ELSE, .END]
/-- The same. -/
def ifNexts : List Base := [.lit "ELSEIF".toList, .lit "ELSE".toList, .lit "END".toList]

/-- The body of `parse_if_statement`. -/
def ifBody : Cmd := Program.parse_if_statement.body
/-- `parse_if_statement` up to its loop. -/
def ifPre : Cmd := .seq (seqL ifBody) (.seq (seqL (seqR ifBody)) (.seq (seqL (seqR (seqR ifBody)))
  (.seq (seqL (seqR (seqR (seqR ifBody)))) (.seq (seqL (seqR (seqR (seqR (seqR ifBody)))))
  (seqL (seqR (seqR (seqR (seqR (seqR ifBody))))))))))
/-- The body of its loop. -/
def ifLoop : Cmd := loopBody (seqL (seqR (seqR (seqR (seqR (seqR (seqR ifBody)))))))
/-- `parse_if_statement` after its loop. -/
def ifPost : Cmd := seqR (seqR (seqR (seqR (seqR (seqR (seqR ifBody))))))

/-- The variables of `parse_if_statement`. -/
def ifEnv (v : Term) : AEnv := abind [v_if_, v_elseifs, v_semicolon] [.node (.hole 0), .vec v, .bool true]
/-- The same after a command. -/
def ifAt (i : Nat) (n v : Term) (s : ASt) : Bool :=
  s.pos == i && s.env v_if_ == .node n && s.env v_elseifs == .vec v && s.env v_semicolon == .bool true

/-- `IF e THEN …` -/
def wIf : Window := win (wd "IF".toList :: condC 1 ++ bodyC "THEN".toList ifStops 2 ++ [⟨ifNexts, none⟩])
/-- Its node. -/
def tIf : Term := .push (.push (.new 0 .IfStatement) .k_condition (.hole 1)) .k_then (.hole 2)
def checkIfPre : Bool :=
  match aexec wIf (acall wIf 0) ifPre ⟨0, abind Program.parse_if_statement.params [.bool true]⟩ with
  | some (.norm, s) => ifAt 4 tIf .nil s
  | _ => false
/-- `ELSEIF e THEN …` -/
def wElseif : Window := win (bare :: wd "ELSEIF".toList :: condC 1 ++ bodyC "THEN".toList ifStops 2 ++ [⟨ifNexts, none⟩])
/-- Its node. -/
def tElseif : Term := .push (.push (.new 1 .ElseIfClause) .k_condition (.hole 1)) .k_then (.hole 2)
def checkElseif : Bool :=
  match aexec wElseif (acall wElseif 0) ifLoop ⟨0, ifEnv (.holes 0)⟩ with
  | some (.norm, s) => ifAt 5 (.hole 0) (.snoc (.holes 0) tElseif) s
  | _ => false
/-- No more branches. -/
def wIfEnd (l : Str) : Window := win [bare, wd l]
def checkIfEnd (l : Str) : Bool :=
  match aexec (wIfEnd l) (acall (wIfEnd l) 0) ifLoop ⟨0, ifEnv (.holes 0)⟩ with
  | some (.brk, s) => ifAt 0 (.hole 0) (.holes 0) s
  | _ => false
/-- With or without branches. -/
def branchVec (b : Bool) : Term := if b then .snoc (.holes 0) (.hole 1) else .nil
/-- With or without branches. -/
def branchTerm (b : Bool) : Term := if b then .pushVec (.hole 0) .k_elseifs (branchVec b) else .hole 0
/-- `END IF;` -/
def wPost : Window := win [bare, wd "END".toList, wd "IF".toList, wd ";".toList]
/-- `ELSE … END IF;` -/
def wElse : Window := win (bare :: bodyC "ELSE".toList [.END] 2 ++ [wd "END".toList, wd "IF".toList, wd ";".toList])
/-- The end of a function. -/
def retAt (i : Nat) (t : Term) : Option (AFlow × ASt) → Bool
  | some (.ret (.node t'), s) => t'.norm == t && s.pos == i
  | _ => false
def checkLabel (m : Bool) : Bool :=
  retAt (if m then 2 else 1) (tLabel m) (aexec (wLabel m) (acall (wLabel m) 0) labelPost ⟨0, labelEnv⟩)
def checkPostIf (b : Bool) : Bool :=
  retAt 3 (endTerm (branchTerm b) .k_end_if 1) (aexec wPost (acall wPost 0) ifPost ⟨0, ifEnv (branchVec b)⟩)
def checkElse (b : Bool) : Bool :=
  retAt 5 (endTerm (.push (branchTerm b) .k_else (.hole 2)) .k_end_if 3) (aexec wElse (acall wElse 0) ifPost ⟨0, ifEnv (branchVec b)⟩)

/-- The body of `parse_begin_statement`. -/
def beginBody : Cmd := Program.parse_begin_statement.body
/-- `parse_begin_statement` after its loop. -/
def beginPost : Cmd := seqR (seqR (seqR beginBody))
/-- The variables of `parse_begin_statement`. -/
def beginEnv (v : Term) : AEnv := abind [v_begin, v_stmts, v_semicolon] [.node (.hole 0), .vec v, .bool true]
/-- With or without statements. -/
def stmtsTerm (b : Bool) : Term := if b then .pushVec (.hole 0) .k_stmts (branchVec b) else .hole 0
/-- `END;` -/
def wBegin : Window := win [bare, wd "END".toList, wd ";".toList]
/-- `EXCEPTION WHEN ERROR THEN … END;` -/
def wCatch : Window := win (bare :: wd "EXCEPTION".toList :: wd "WHEN".toList :: wd "ERROR".toList :: bodyC "THEN".toList [.END] 2 ++
  [wd "END".toList, wd ";".toList])
/-- `END;` at the cell `c`. -/
def endTerm1 (n : Term) (c : Nat) : Term := .push (.push n .k_end (.new c .Keyword)) .k_semicolon (.new (c + 1) .Symbol)
def checkBegin (b : Bool) : Bool :=
  retAt 2 (endTerm1 (stmtsTerm b) 1) (aexec wBegin (acall wBegin 0) beginPost ⟨0, beginEnv (branchVec b)⟩)
def checkCatch (b : Bool) : Bool :=
  retAt 7 (endTerm1 (.push (.pushVec (stmtsTerm b) .k_exception_when_error
    (.snoc (.snoc (.snoc .nil (.new 1 .Keyword)) (.new 2 .Keyword)) (.new 3 .Keyword))) .k_then (.hole 2)) 6)
    (aexec wCatch (acall wCatch 0) beginPost ⟨0, beginEnv (branchVec b)⟩)

/-- Words that begin a statement. -/
def blockHeads : List Str := "CASE".toList :: "FOR".toList :: heads

/-- What may follow `BEGIN`. -/
def beginNexts : List Base := .other .Identifier :: .lit "END".toList :: .lit "EXCEPTION".toList :: blockHeads.map .lit

theorem blocks_ok : (∀ x ∈ loopEnds, checkWhole (wLoop x) tLoop x.1 = true ∧ checkWhole (wRep x) tRep x.1 = true ∧
      checkWhole (wWhile x) tWhile x.1 = true) ∧
    checkCall (.other .Identifier) [.lit ":".toList] .parse_labeled_statement = true ∧ (∀ m, checkLabel m = true) ∧
    checkCall (.lit "IF".toList) firsts .parse_if_statement = true ∧
    checkCall (.lit "BEGIN".toList) beginNexts .parse_begin_statement = true ∧ checkIfPre = true ∧
    checkElseif = true ∧ checkIfEnd "ELSE".toList = true ∧ checkIfEnd "END".toList = true ∧
    (∀ b, checkPostIf b = true) ∧ (∀ b, checkElse b = true) ∧ (∀ b, checkBegin b = true) ∧ (∀ b, checkCatch b = true) := by
  decide +kernel

/-- `parse_case_statement` after its branches. -/
def casePost : Cmd := seqR (seqR (seqR (seqR (seqR Program.parse_case_statement.body))))
/-- Its variables. -/
def caseEnv : AEnv := abind [v_case, v_arms, v_semicolon] [.node (.hole 0), .vec (.holes 0), .bool true]
/-- `END CASE;` -/
def wCaseEnd : Window := win [bare, wd "END".toList, wd "CASE".toList, wd ";".toList]
def checkCaseEnd : Bool :=
  retAt 3 (endTerm (.pushVec (.hole 0) .k_arms (.holes 0)) .k_end_case 1) (aexec wCaseEnd (acall wCaseEnd 2) casePost ⟨0, caseEnv⟩)

theorem case_ok : checkCall (.lit "CASE".toList) (.lit "WHEN".toList :: firsts) .parse_case_statement = true ∧ checkCaseEnd = true := by
  decide +kernel

/-- The body of `parse_for_statement`. -/
def forBody : Cmd := Program.parse_for_statement.body
/-- `parse_for_statement` up to `DO`. -/
def forPre : Cmd := .seq (seqL forBody) (.seq (seqL (seqR forBody)) (.seq (seqL (seqR (seqR forBody)))
  (.seq (seqL (seqR (seqR (seqR forBody)))) (.seq (seqL (seqR (seqR (seqR (seqR forBody)))))
  (.seq (seqL (seqR (seqR (seqR (seqR (seqR forBody)))))) (.seq (seqL (seqR (seqR (seqR (seqR (seqR (seqR forBody)))))))
  (seqL (seqR (seqR (seqR (seqR (seqR (seqR (seqR forBody))))))))))))))
/-- `parse_for_statement` after its statements. -/
def forPost : Cmd := seqR (seqR (seqR (seqR (seqR (seqR (seqR (seqR (seqR (seqR forBody)))))))))
/-- The variables of `parse_for_statement`. -/
def forEnv : AEnv := abind [v_for_, v_semicolon] [.node (.hole 0), .bool true]
/-- `FOR x IN (SELECT y) DO` -/
def forWindow (s : Shape) : Window := win (cellsOf s.items 1 ++ [⟨[.lit "DO".toList], none⟩])
def checkFor (s : Shape) : Bool :=
  match aexec (forWindow s) (acall (forWindow s) 12) forPre ⟨0, abind Program.parse_for_statement.params [.bool true]⟩ with
  | some (.norm, st) => st.pos + 2 == (forWindow s).cells.length &&
      (match (forWindow s).cells[st.pos]? with | some c => c.gap.isNone | none => false) &&
      st.env v_semicolon == .bool true &&
      (match st.env v_for_ with | .node t => t.norm == termOf s.items 0 s.node | _ => false)
  | _ => false
/-- `END FOR;` -/
def wForEnd : Window := win [bare, wd "END".toList, wd "FOR".toList, wd ";".toList]
def checkForEnd : Bool :=
  retAt 3 (endTerm (.hole 0) .k_end_for 1) (aexec wForEnd (acall wForEnd 2) forPost ⟨0, forEnv⟩)

theorem for_ok : checkCall (.lit "FOR".toList) [.other .Identifier] .parse_for_statement = true ∧ checkForEnd = true ∧
    ∀ s ∈ fors, checkFor s = true := by
  decide +kernel

theorem forShapes_ok : ∀ s ∈ fors, (itemsOk s.items && formOk s.items.length s.node && noEnd s.items &&
    (match s.items with | .tok l :: .name :: is => l == "FOR".toList && decide (1 ≤ toks is) | _ => false)) = true := by decide +kernel

theorem colon_vocab : ":".toList ∈ vocab := by decide
theorem for_vocab : "FOR".toList ∈ vocab := by decide

end Verif.Sym
