AccessOperator sym_lbrack
AddColumnClause ADD
AddConstraintClause ADD
AggregatePipeOperator AGGREGATE
AlterBICapacityStatement ALTER
AlterColumnStatement ALTER
AlterModelStatement ALTER
AlterOrganizationStatement ALTER
AlterProjectStatement ALTER
AlterReservationStatement ALTER
AlterSchemaStatement ALTER
AlterTableDropClause DROP
AlterTableStatement ALTER
AlterVectorIndexStatement ALTER
AlterViewStatement ALTER
AssertStatement ASSERT
Asterisk sym_star
BasePipeOperator AS CALL DROP EXTEND ORDER RENAME SET WHERE
BeginStatement BEGIN
BetweenOperator BETWEEN
BinaryOperator sym_ne sym_amp sym_star sym_plus sym_minus sym_slash sym_lt sym_shl sym_le sym_ltgt sym_eq sym_arrow sym_gt sym_ge sym_shr AND IS LIKE OR sym_caret sym_bar sym_concat
BreakContinueStatement BREAK CONTINUE ITERATE LEAVE
CallStatement CALL
CallingFunction sym_lparen
CallingTableFunction sym_lparen
CaseExpr CASE
CaseExprArm ELSE WHEN
CaseStatement CASE
CaseStatementArm ELSE WHEN
CreateFunctionStatement CREATE
CreateIndexStatement CREATE
CreateModelStatement CREATE
CreateProcedureStatement CREATE
CreateReservationStatement CREATE
CreateRowAccessPolicyStatement CREATE
CreateSchemaStatement CREATE
CreateTableStatement CREATE
CreateViewStatement CREATE
DeclareStatement DECLARE
DeleteStatement DELETE
DifferentialPrivacyClause WITH
DotOperator sym_dot
DropRowAccessPolicyStatement DROP
DropStatement DROP
ElseIfClause ELSEIF
EmptyStruct sym_lparen
ExecuteStatement EXECUTE
ExportDataStatement EXPORT
ExportModelStatement EXPORT
ForStatement FOR
ForSystemTimeAsOfClause FOR
FromStatement FROM
FunctionChain sym_dot
GrantStatement GRANT
GroupByExprs GROUP
GroupedIdentWithOptions sym_lparen
GroupedPattern sym_lparen
GroupedType sym_lt
IfStatement IF
InOperator IN
InsertStatement INSERT
IntervalLiteral INTERVAL
IsDistinctFromOperator IS
KeywordWithType RETURNS
LimitClause LIMIT
LimitPipeOperator LIMIT
LoadStatement LOAD
MatchRecognizeClause MATCH_RECOGNIZE
MatchRecognizePipeOperator MATCH_RECOGNIZE
MergeStatement MERGE
OrPattern sym_bar
OverClause OVER
PatternClause PATTERN
PatternQuantifier sym_lbrace
PipeStatement sym_pipe
PivotOperator PIVOT
PivotPipeOperator PIVOT
RaiseStatement RAISE
RenameColumnClause RENAME
RevokeStatement REVOKE
SelectPipeOperator SELECT
SetStatement SET
SingleTokenStatement DELETE RETURN
TableSampleClause TABLESAMPLE
TableSamplePipeOperator TABLESAMPLE
TransactionStatement BEGIN COMMIT ROLLBACK
TruncateStatement TRUNCATE
UnaryOperator sym_plus sym_minus B BIGDECIMAL BIGNUMERIC BR DATE DATETIME DECIMAL JSON MODEL NOT NUMERIC R RB TABLE TIME TIMESTAMP sym_tilde
UndropStatement UNDROP
UnpivotOperator UNPIVOT
UnpivotPipeOperator UNPIVOT
UpdateStatement UPDATE
WhenClause WHEN
WhileStatement WHILE
WindowClause WINDOW
WindowFrameClause RANGE ROWS
WindowSpecification sym_lparen
WithClause WITH
WithOffsetClause WITH
WithPartitionColumnsClause WITH
WithPipeOperator WITH
XXXByExprs CLUSTER ORDER PARTITION
