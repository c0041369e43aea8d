import Verif.Model.Token
/-!
Which words a statement of a given kind begins with.
-/
namespace Verif.Spec

/-- The words of a list of tokens: the literals of the tokens other than comments, in upper case.  The EOF token
counts as an empty word. -/
def words (U : Unicode) (toks : List Token) : List Str :=
  (toks.filter fun t => !t.isComment).map (Token.upper U)

/-- Node types of queries: a SELECT statement, or two of them combined, or one in parentheses, or a pipe. -/
def queryTypes : List NodeType :=
  [.SelectStatement, .GroupedStatement, .FromStatement, .SetOperator, .PipeStatement]

/-- Node types of statements whose first word is enough to tell their kind. -/
def statementTypes : List (String × List NodeType) := [
  ("SELECT", [.SelectStatement, .SetOperator, .PipeStatement]),
  ("(", [.GroupedStatement, .SetOperator, .PipeStatement]),
  ("WITH", queryTypes),
  ("FROM", [.FromStatement, .PipeStatement]),
  ("INSERT", [.InsertStatement]), ("DELETE", [.DeleteStatement]), ("TRUNCATE", [.TruncateStatement]),
  ("UPDATE", [.UpdateStatement]), ("MERGE", [.MergeStatement]),
  ("UNDROP", [.UndropStatement]), ("GRANT", [.GrantStatement]), ("REVOKE", [.RevokeStatement]),
  ("DECLARE", [.DeclareStatement]), ("SET", [.SetStatement]), ("EXECUTE", [.ExecuteStatement]),
  ("IF", [.IfStatement]), ("CASE", [.CaseStatement]), ("LOAD", [.LoadStatement]), ("LOOP", [.LoopStatement]),
  ("REPEAT", [.RepeatStatement]), ("WHILE", [.WhileStatement]),
  ("BREAK", [.BreakContinueStatement]), ("LEAVE", [.BreakContinueStatement]),
  ("CONTINUE", [.BreakContinueStatement]), ("ITERATE", [.BreakContinueStatement]),
  ("FOR", [.ForStatement]), ("COMMIT", [.TransactionStatement]), ("ROLLBACK", [.TransactionStatement]),
  ("RAISE", [.RaiseStatement]), ("RETURN", [.SingleTokenStatement]), ("CALL", [.CallStatement]),
  ("ASSERT", [.AssertStatement])]

/-- What can be created, and the type of the statement. -/
def createTypes : List (String × NodeType) := [
  ("SCHEMA", .CreateSchemaStatement), ("TABLE", .CreateTableStatement), ("VIEW", .CreateViewStatement),
  ("FUNCTION", .CreateFunctionStatement), ("PROCEDURE", .CreateProcedureStatement),
  ("ROW", .CreateRowAccessPolicyStatement), ("CAPACITY", .CreateReservationStatement),
  ("RESERVATION", .CreateReservationStatement), ("ASSIGNMENT", .CreateReservationStatement),
  ("SEARCH", .CreateIndexStatement), ("VECTOR", .CreateIndexStatement), ("MODEL", .CreateModelStatement)]

/-- What can be altered, and the type of the statement. -/
def alterTypes : List (String × NodeType) := [
  ("SCHEMA", .AlterSchemaStatement), ("TABLE", .AlterTableStatement), ("COLUMN", .AlterColumnStatement),
  ("VIEW", .AlterViewStatement), ("VECTOR", .AlterVectorIndexStatement),
  ("ORGANIZATION", .AlterOrganizationStatement), ("PROJECT", .AlterProjectStatement),
  ("BI_CAPACITY", .AlterBICapacityStatement), ("CAPACITY", .AlterReservationStatement),
  ("RESERVATION", .AlterReservationStatement), ("MODEL", .AlterModelStatement)]

/-- The words a statement can begin with. -/
def firstWords : List String :=
  statementTypes.map Prod.fst ++ ["CREATE", "ALTER", "DROP", "BEGIN", "EXPORT"]

/-- None of the words names something of the list. -/
def NoneNamed (ws : List Str) (l : List (String × NodeType)) : Prop :=
  ∀ w ∈ ws, ∀ p ∈ l, w ≠ p.1.toList

/-- A statement that begins with these words has this type. -/
inductive StatementType : List Str → NodeType → Prop
  /-- The first word is enough. -/
  | plain {w : String} {tys : List NodeType} {ty : NodeType} {ws : List Str}
      (hw : (w, tys) ∈ statementTypes) (ht : ty ∈ tys) : StatementType (w.toList :: ws) ty
  /-- What is created is the first of these words among the five words after CREATE. -/
  | create {w : String} {ty : NodeType} {skipped ws : List Str} (hs : skipped.length < 5)
      (hn : NoneNamed skipped createTypes) (hw : (w, ty) ∈ createTypes)
      (hf : w = "TABLE" → ws.head? ≠ some "FUNCTION".toList) :
      StatementType ("CREATE".toList :: (skipped ++ w.toList :: ws)) ty
  /-- A table function is a function. -/
  | tableFunction {skipped ws : List Str} (hs : skipped.length < 5) (hn : NoneNamed skipped createTypes) :
      StatementType ("CREATE".toList :: (skipped ++ "TABLE".toList :: "FUNCTION".toList :: ws))
        .CreateFunctionStatement
  /-- What is altered is the first of these words among the five words after ALTER. -/
  | alter {w : String} {ty : NodeType} {skipped ws : List Str} (hs : skipped.length < 5)
      (hn : NoneNamed skipped alterTypes) (hw : (w, ty) ∈ alterTypes) :
      StatementType ("ALTER".toList :: (skipped ++ w.toList :: ws)) ty
  | dropPolicy {w : Str} {ws : List Str} (hw : w = "ALL".toList ∨ w = "ROW".toList) :
      StatementType ("DROP".toList :: w :: ws) .DropRowAccessPolicyStatement
  | drop {w : Str} {ws : List Str} (hw : ¬ (w = "ALL".toList ∨ w = "ROW".toList)) :
      StatementType ("DROP".toList :: w :: ws) .DropStatement
  /-- BEGIN TRANSACTION, or just BEGIN (no word follows the word of the EOF token). -/
  | transaction {w : Str} {ws : List Str} (hw : w = "TRANSACTION".toList ∨ w = ";".toList ∨ ws = []) :
      StatementType ("BEGIN".toList :: w :: ws) .TransactionStatement
  | block {w : Str} {ws : List Str} (hw : ¬ (w = "TRANSACTION".toList ∨ w = ";".toList ∨ ws = [])) :
      StatementType ("BEGIN".toList :: w :: ws) .BeginStatement
  | exportData {ws : List Str} : StatementType ("EXPORT".toList :: "DATA".toList :: ws) .ExportDataStatement
  | exportModel {w : Str} {ws : List Str} (hw : w ≠ "DATA".toList) :
      StatementType ("EXPORT".toList :: w :: ws) .ExportModelStatement
  /-- A statement after a label and a colon. -/
  | labelled {w c : Str} {ws : List Str} {ty : NodeType} (hw : ∀ v ∈ firstWords, w ≠ v.toList)
      (h : StatementType ws ty) : StatementType (w :: c :: ws) ty

end Verif.Spec
