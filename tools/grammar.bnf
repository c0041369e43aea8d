# Grammar of accepted scripts.  One rule per line; `|` separates alternatives, `ε` is the empty phrase, `X?`
# an optional symbol.  Quoted symbols and words in capitals stand for themselves (in any case), ID is a
# name (NAME also one of the soft words, WORD any word), NUM a number, STR a string literal, PAR a parameter.  Longer rules go on in indented lines.

soft DATE TIME DATETIME TIMESTAMP NUMERIC BIGNUMERIC DECIMAL BIGDECIMAL JSON ADD AFTER AGGREGATE ALTER ASSERT ASSIGNMENT BEGIN BI_CAPACITY BREAK CALL CAPACITY CASCADE CLONE CLUSTER COLUMN COMMIT CONNECTION CONTINUE COPY CORRESPONDING DATA DECLARE DELETE DETERMINISTIC DROP ELSEIF ENFORCED EXCEPTION EXECUTE EXPORT EXTEND EXTERNAL FIRST FORMAT GRANT INCLUDE INPUT INSERT ITERATE KEY LANGUAGE LAST LEAVE LOAD LOOP MATCH_RECOGNIZE MATERIALIZED MEASURES ORGANIZATION OUTPUT OVERWRITE PARTITIONS PATTERN PIVOT PROCEDURE PROJECT RAISE REFERENCES REMOTE RENAME REPEAT REPLACE REPLICA RESERVATION RESTRICT RETURN RETURNS REVOKE ROLLBACK SCHEMA SEARCH SNAPSHOT STORING STRICT TEMP TEMPORARY TRANSACTION TRANSFORM TRUNCATE UNDROP UNPIVOT UNTIL UPDATE VECTOR VIEW WHILE


# --- statements -----------------------------------------------------------------------------------
Statement ::= Plain | PipeInsert | PipeTable | PipeView | PipeFunction | PipeExport
Plain ::= PipeQuery | Query | Insert | Delete | Truncate | Update | Merge
   | CreateSchema | CreateIndex | CreateTable | CreateView | CreateFunction | CreateProcedure | CreatePolicy | CreateModel | CreateReservation
   | AlterSchema | AlterTable | AlterColumn | AlterView | AlterIndex | AlterOther
   | DropPolicy | Drop | Undrop | Grant | Revoke
   | Declare | Set | Execute | Begin | If | Case | Loop | Repeat | While | For | Transaction | Raise | RETURN
   | Call | Assert | ExportData | ExportModel | Load
Block ::= ε | Step ';' Block
Step ::= Statement | Jump
PlainStep ::= Plain | Jump
Jump ::= JumpWord ID?
JumpWord ::= BREAK | LEAVE | CONTINUE | ITERATE

# --- changing data --------------------------------------------------------------------------------
Insert ::= INSERT INTO? TableName '(' ExprList ')' InsertInput | INSERT INTO? TableName InsertRows | INSERT INTO? TableName QueryN
InsertInput ::= InsertRows | Query
PipeInsert ::= INSERT INTO? TableName '(' ExprList ')' SelPipe
InsertRows ::= VALUES Rows
Rows ::= Row ',' Rows | Row
Row ::= '(' ValueList ')'
ValueList ::= Value ',' ValueList | Value
Value ::= Expr | DEFAULT
Delete ::= DELETE FROM? TableName Alias? WHERE Expr
Truncate ::= TRUNCATE TABLE TableName
Update ::= UPDATE TablePrim Joins UpdateSet
UpdateSet ::= SET SetItems FromClause? Where?
SetItems ::= SetItem ',' SetItems | SetItem
SetItem ::= Expr | NAME Post '=' DEFAULT
Merge ::= MERGE INTO? TableName Alias? USING MergeSource ON Expr Whens
MergeSource ::= NAME Post Alias? | '(' InQueryE ')' Alias?
Whens ::= When | When Whens
When ::= WHEN NOT? MATCHED MatchedBy? MatchedAnd? THEN MergeAction
MatchedBy ::= BY TARGET | BY SOURCE
MatchedAnd ::= AND Expr
MergeAction ::= DELETE | UPDATE SET SetItems | INSERT MergeInput | INSERT '(' ExprList ')' MergeInput
MergeInput ::= ROW | VALUES Row

# --- definitions ----------------------------------------------------------------------------------
OrReplace ::= OR REPLACE
IfNotExists ::= IF NOT EXISTS
IfExists ::= IF EXISTS
Options ::= OPTIONS '(' ')' | OPTIONS '(' ExprList ')'
Connection ::= WITH CONNECTION TableName | WITH CONNECTION DEFAULT
NamedConnection ::= WITH CONNECTION TableName
Collate ::= DEFAULT COLLATE STR
ClusterBy ::= CLUSTER BY ExprList
CreateSchema ::= CREATE EXTERNAL? SCHEMA IfNotExists? TableName Collate? Connection? Options?
CreateIndex ::= CREATE OrReplace? IndexKind INDEX IfNotExists? TableName ON TableName IndexCols Storing? PartitionBy? Options?
IndexKind ::= SEARCH | VECTOR
IndexCols ::= '(' ALL COLUMNS ')' | '(' ExprList ')'
Storing ::= STORING '(' ExprList ')'
CreateTable ::= CREATE OrReplace? TempWord? TABLE IfNotExists? TableName TableSource? Columns? Collate? PartitionBy? ClusterBy? TableEnd
   | CREATE OrReplace? SNAPSHOT TABLE IfNotExists? TableName CloneOf
   | CREATE OrReplace? EXTERNAL TABLE IfNotExists? TableName Columns? Connection? PartitionColumns? Options?
TableEnd ::= Options? AsQuery? | CloneOf
TempWord ::= TEMP | TEMPORARY
TableSource ::= LIKE TableName | COPY TableName
CloneOf ::= CLONE TableName | CLONE TableName SystemTime Options?
PartitionColumns ::= WITH PARTITION COLUMNS PlainColumns?
AsQuery ::= AS Query
PipeTable ::= CREATE OrReplace? TempWord? TABLE IfNotExists? TableName TableSource? Columns? Collate? PartitionBy? ClusterBy? Options? AS SelPipe
Columns ::= '(' ')' | '(' ColumnList ')'
ColumnList ::= Column ',' ColumnList | Column
Column ::= NAME SchemaType ColumnRest | TableConstraint
PlainColumns ::= '(' PlainColumnList ')'
PlainColumnList ::= PlainColumn ',' PlainColumnList | PlainColumn
PlainColumn ::= NAME Type ColumnCollate?
ColumnRest ::= ColumnCollate? ColumnMore
ColumnMore ::= ColumnKey Enforced ColumnEnd | ColumnKey ColumnDefault | ColumnEnd
ColumnCollate ::= COLLATE STR
ColumnKey ::= PRIMARY KEY | ColumnConstraint References | References
References ::= REFERENCES TvfName '(' ExprList ')'
ColumnConstraint ::= CONSTRAINT NAME
Enforced ::= NOT ENFORCED | ENFORCED
ColumnDefault ::= DEFAULT Expr Options? | Options?
ColumnEnd ::= ColumnDefault | NOT NULL Options?
TableConstraint ::= ConstraintName TableKey | TableKey
TableKey ::= PRIMARY KEY '(' ExprList ')' Enforced? | FOREIGN KEY '(' ExprList ')' References Enforced?
ConstraintName ::= CONSTRAINT IfNotExists? NAME
CreateView ::= CREATE OrReplace? VIEW IfNotExists? TableName ViewColumns? Options? AS Query
   | CREATE OrReplace? MATERIALIZED VIEW IfNotExists? TableName PartitionBy? ClusterBy? Options? ViewBody
ViewBody ::= AS Query | AS REPLICA OF TableName
PipeView ::= CREATE OrReplace? VIEW IfNotExists? TableName ViewColumns? Options? AS SelPipe
   | CREATE OrReplace? MATERIALIZED VIEW IfNotExists? TableName PartitionBy? ClusterBy? Options? AS SelPipe
ViewColumns ::= '(' ViewColumnList ')'
ViewColumnList ::= NAME Options? ',' ViewColumnList | NAME Options?
CreateFunction ::= CREATE OrReplace? TempWord? AGGREGATE? FUNCTION IfNotExists? TableName Parameters Returns? FunctionBody
   | CREATE OrReplace? TABLE FUNCTION IfNotExists? TableName Parameters Returns? AS Query
PipeFunction ::= CREATE OrReplace? TABLE FUNCTION IfNotExists? TableName Parameters Returns? AS SelPipe
Parameters ::= '(' ')' | '(' ParameterList ')'
ParameterList ::= Parameter ',' ParameterList | Parameter
Parameter ::= NAME ParamType NotAggregate?
ParamType ::= Type | ANY TYPE
NotAggregate ::= NOT AGGREGATE
Returns ::= RETURNS ReturnType
ReturnType ::= Type | TABLE '<' FieldList '>'
FunctionBody ::= AS '(' Expr ')' | REMOTE NamedConnection Options? | LanguageBody | Determinism LanguageBody
LanguageBody ::= LANGUAGE ID NamedConnection? Options? AS Expr
Determinism ::= DETERMINISTIC | NOT DETERMINISTIC
CreateProcedure ::= CREATE OrReplace? PROCEDURE IfNotExists? TableName ProcParameters ExternalSecurity? Connection? Options? ProcBody
ProcParameters ::= '(' ')' | '(' ProcParameterList ')'
ProcParameterList ::= ProcParameter ',' ProcParameterList | ProcParameter
ProcParameter ::= ParamMode NAME ParamType | NAME ParamType
ParamMode ::= IN | OUT | INOUT
ExternalSecurity ::= EXTERNAL SECURITY INVOKER
ProcBody ::= BeginBlock | LANGUAGE ID | LANGUAGE ID AS Expr
CreatePolicy ::= CREATE OrReplace? ROW ACCESS POLICY IfNotExists? TableName ON TableName GrantTo? FILTER USING '(' Expr ')'
GrantTo ::= GRANT TO '(' ExprList ')'
CreateModel ::= CREATE OrReplace? MODEL IfNotExists? TableName Transform? Input? Output? Remote? Options? ModelQuery?
Transform ::= TRANSFORM '(' SelectList ')'
Input ::= INPUT PlainColumns
Output ::= OUTPUT PlainColumns
Remote ::= REMOTE NamedConnection
ModelQuery ::= AS QueryN | AS '(' TRAINING_DATA AS '(' InQuery ')' ',' CUSTOM_HOLIDAY AS '(' InQuery ')' ')'
CreateReservation ::= CREATE ReservationKind TableName ReservationBody?
ReservationKind ::= CAPACITY | RESERVATION | ASSIGNMENT
ReservationBody ::= AS JSON Expr | Options

AlterSchema ::= ALTER SCHEMA IfExists? TableName SchemaChange
SchemaChange ::= SET Collate | SET Options | ADD REPLICA TableName Options? | DROP REPLICA TableName
AlterTable ::= ALTER TABLE IfExists? TableName TableChange
TableChange ::= SET Options | SET Collate | AddColumns | AddConstraints | RENAME TO TableName | RenameColumns | DropParts | AlterColumn
AddColumns ::= AddColumn ',' AddColumns | AddColumn
AddColumn ::= ADD COLUMN IfNotExists? NAME SchemaType ColumnRest
AddConstraints ::= ADD TableConstraint ',' AddConstraints | ADD TableConstraint
RenameColumns ::= RenameColumn ',' RenameColumns | RenameColumn
RenameColumn ::= RENAME COLUMN IfExists? NAME TO NAME
DropParts ::= DropPart ',' DropParts | DropPart
DropPart ::= DROP COLUMN IfExists? NAME | DROP CONSTRAINT IfExists? NAME | DROP PRIMARY KEY IfExists?
AlterColumn ::= ALTER COLUMN IfExists? NAME ColumnChange
ColumnChange ::= SET Options | SET DATA TYPE Type ColumnCollate? | SET DEFAULT Expr | DROP DEFAULT | DROP NOT NULL
AlterView ::= ALTER MATERIALIZED? VIEW IfExists? TableName ViewChange
ViewChange ::= SET Options | AlterColumn
AlterIndex ::= ALTER VECTOR INDEX IfExists? TableName ON TableName REBUILD
AlterOther ::= ALTER ORGANIZATION SET Options | ALTER PROJECT TableName? SET Options | ALTER BI_CAPACITY TableName SET Options
   | ALTER CAPACITY TableName SET Options | ALTER RESERVATION TableName SET Options | ALTER MODEL IfExists? TableName SET Options
DropPolicy ::= DROP ROW ACCESS POLICY IfExists? TableName ON TableName | DROP ALL ROW ACCESS POLICIES ON TableName
Drop ::= DROP DropKind IfExists? TableName DropMode? | DROP SEARCH INDEX IfExists? TableName ON TableName
DropKind ::= EXTERNAL SCHEMA | SCHEMA | EXTERNAL TABLE | TABLE | MATERIALIZED VIEW | VIEW | TABLE FUNCTION | FUNCTION | PROCEDURE | MODEL
   | CAPACITY | RESERVATION | ASSIGNMENT
DropMode ::= CASCADE | RESTRICT
Undrop ::= UNDROP SCHEMA IfNotExists? TableName
Grant ::= GRANT ExprList ON GrantKind TableName TO ExprList
Revoke ::= REVOKE ExprList ON GrantKind TableName FROM ExprList
GrantKind ::= SCHEMA | TABLE | VIEW

# --- procedural language --------------------------------------------------------------------------
Declare ::= DECLARE Variables Type DefaultValue? | DECLARE Variables DefaultValue
Variables ::= NAME ',' Variables | NAME
DefaultValue ::= DEFAULT Expr
Set ::= SET Expr
Execute ::= EXECUTE IMMEDIATE Expr IntoVars? UsingArgs?
IntoVars ::= INTO Variables
UsingArgs ::= USING AliasedList
Begin ::= BeginBlock
BeginBlock ::= BEGIN Block Handler? END
Handler ::= EXCEPTION WHEN ERROR THEN Block
If ::= IF Expr THEN Block ElseIfs Else? END IF
ElseIfs ::= ε | ELSEIF Expr THEN Block ElseIfs
Else ::= ELSE Block
Case ::= CASE Expr? CaseSteps Else? END CASE
CaseSteps ::= CaseStep | CaseStep CaseSteps
CaseStep ::= WHEN Expr THEN Block
Loop ::= LOOP Block END LOOP
Repeat ::= REPEAT Block UNTIL Expr END REPEAT
While ::= WHILE Expr DO Block END WHILE
For ::= FOR ID IN ParQ0 DO Block END FOR
ParQ0 ::= '(' InQuery ')'
Transaction ::= TxWord TRANSACTION | TxWord
TxWord ::= BEGIN | COMMIT | ROLLBACK
Raise ::= RAISE RaiseUsing?
RaiseUsing ::= USING Expr
Call ::= CALL Expr
Assert ::= ASSERT Expr AssertAs?
AssertAs ::= AS Expr
ExportData ::= EXPORT DATA Connection? Options AS Query
PipeExport ::= EXPORT DATA Connection? Options AS SelPipe
ExportModel ::= EXPORT MODEL TableName Options?
Load ::= LOAD DATA LoadMode TableName LoadPartitions? PlainColumns? PartitionBy? ClusterBy? Options? FROM FILES '(' ExprList ')' PartitionColumns? NamedConnection?
LoadMode ::= INTO | OVERWRITE
LoadPartitions ::= OVERWRITE PARTITIONS '(' Expr ')' | PARTITIONS '(' Expr ')'

# --- queries --------------------------------------------------------------------------------------
Query ::= QueryN | ParQ
QueryBody ::= SelQ | ParQ
With ::= WITH RECURSIVE? Ctes
Ctes ::= Cte ',' Ctes | Cte
Cte ::= NAME AS '(' InQuery ')'
SelQ ::= SelectFrom SelExcept | SelectOnly SelMethod | SelectCore SelRest
SelRest ::= OrderBy? Limit? | SetOpU SelQ | SetOpU '(' InQuery ')' ParRest1
SelExcept ::= SetOpE SelQ | SetOpE '(' InQuery ')' ParRest1
SelMethod ::= SetOpM SelQ | SetOpM '(' InQuery ')' ParRest1
ParRest1 ::= ε | SetOp SelQ | SetOp '(' InQuery ')' ParRest1
ParQ ::= '(' InQuery ')' ParRest
ParRest ::= OrderBy? Limit? | SetOp SelQ | SetOp '(' InQuery ')' ParRest
SetOp ::= SetOpU | SetOpE | SetOpM
SetOpU ::= SetKind SetName?
SetOpE ::= EXCEPT DISTINCT SetName?
SetOpM ::= SetMethod SetKind SetName?
SetMethod ::= INNER | FULL | FULL OUTER | LEFT | LEFT OUTER | OUTER
SetKind ::= UNION ALL | UNION DISTINCT | INTERSECT DISTINCT
SetName ::= BY NAME | BY NAME ON '(' ExprList ')' | STRICT Corresponding | Corresponding
Corresponding ::= CORRESPONDING BY '(' ExprList ')' | CORRESPONDING
OrderBy ::= ORDER BY OrderItems
OrderItems ::= Expr Ord? ',' OrderItems | Expr Ord?
Ord ::= ASC | DESC | ASC NullOrder | DESC NullOrder | NullOrder
NullOrder ::= NULLS FIRST | NULLS LAST
Limit ::= LIMIT Expr | LIMIT Expr OFFSET Expr
SelectCore ::= SelectFrom | SelectOnly
SelectOnly ::= SELECT Privacy? SelMod? SelAs? SelectList
Privacy ::= WITH DIFFERENTIAL_PRIVACY Options?
SelectFrom ::= SELECT Privacy? SelMod? SelAs? SelectList ',' FromClause Clauses | SELECT Privacy? SelMod? SelAs? SelectList FromClause Clauses
Clauses ::= Where? GroupBy? Having? Qualify? Window?
SelMod ::= ALL | DISTINCT
SelAs ::= AS STRUCT | AS VALUE
SelectList ::= SelectItem ',' SelectList | SelectItem
SelectItem ::= WITH '(' WithArgs ')' Alias? | Expr Alias? | '*' StarMod? | DotBase '.' '*' StarMod?
WithArgs ::= ID AS Expr ',' WithArgs | ID AS Expr ',' Expr
DotBase ::= NAME '(' CallArgs ')' Post | NAME Post | '(' InQueryE ')' Post | '(' ExprList ')' Post
StarMod ::= EXCEPT '(' ExprList ')' | REPLACE '(' AliasedList ')'
Alias ::= AS NAME | ID
AliasedList ::= Expr Alias? ',' AliasedList | Expr Alias?
FromClause ::= FROM TableExpr
Where ::= WHERE Expr
GroupBy ::= GROUP BY GroupItems
GroupItems ::= ExprList | ALL | ROLLUP '(' ExprList ')' | CUBE '(' ExprList ')' | GROUPING SETS '(' ExprList ')'
Having ::= HAVING Expr
Qualify ::= QUALIFY Expr
Window ::= WINDOW WindowDefs
WindowDefs ::= WindowDef ',' WindowDefs | WindowDef
WindowDef ::= ID AS WindowSpec
WindowSpec ::= ID | '(' ID? PartitionBy? OrderBy? Frame? ')'
PartitionBy ::= PARTITION BY ExprList
Frame ::= FrameUnit BETWEEN FrameBound AND FrameBound | FrameUnit FrameBound
FrameUnit ::= ROWS | RANGE
FrameBound ::= UNBOUNDED PRECEDING | UNBOUNDED FOLLOWING | CURRENT ROW | NUM PRECEDING | NUM FOLLOWING

# --- pipes ----------------------------------------------------------------------------------------
InQuery ::= InQueryN | ParPipe | ParQ
InQueryN ::= FromHead Pipes | FromHead | InQueryE
InQueryE ::= SelPipeN | QueryN
PipeQuery ::= SelPipe | FromHead Pipes | FromHead
SelPipe ::= SelPipeN | ParPipe
SelPipeN ::= SelHeadN Pipes | WithPipe
ParPipe ::= '(' InQuery ')' Pipes
WithPipe ::= With SelHeadN Pipes | With ParPipe | With FromHead Pipes | With FromHead
SelHeadN ::= SELECT Privacy? SelMod? SelAs? SelectList FromHead Clauses OrderBy? Limit? | SelectOnly OrderBy? Limit?
FromHead ::= FROM TableExprP
TableExprP ::= TablePrimP JoinsP
JoinsP ::= ε | ',' TablePrimP JoinsP | JoinKind TablePrimP JoinCond? JoinsP
TablePrimP ::= TableName Alias? SystemTime? TableOp? Sample? | '(' InQueryN ')' Alias TableOp? Sample? | '(' TableExprN ')' | UNNEST '(' Expr ')' Alias? WithOffset?
   | TvfName '(' TableArgs? ')' Alias?
Pipes ::= '|>' With Pipes | '|>' PipeOp Pipes | '|>' PipeOp
PipeOp ::= PipeWord AliasedList | ORDER BY OrderItems | SELECT SelMod? SelAs? SelectList Window?
   | AGGREGATE AliasedList PipeGroupBy? | SetOp PipeInputs | PipeJoin
   | LIMIT Expr | LIMIT Expr OFFSET Expr | Sample | Pivot | Unpivot | MatchRecognize | DISTINCT
PipeWord ::= EXTEND | SET | DROP | RENAME | AS | WHERE | CALL
PipeGroupBy ::= GROUP BY PipeGroupItems
PipeGroupItems ::= AliasedList | ALL | ROLLUP '(' ExprList ')' | CUBE '(' ExprList ')' | GROUPING SETS '(' ExprList ')'
PipeInputs ::= '(' InQueryE ')' ',' PipeInputs | '(' InQueryE ')'
PipeJoin ::= JoinKind TablePrimP JoinCond?

# --- tables ---------------------------------------------------------------------------------------
TableExpr ::= TablePrim Joins
Joins ::= ε | ',' TablePrim Joins | JoinKind TablePrim JoinCond? Joins
JoinKind ::= JOIN | INNER JOIN | CROSS JOIN | LEFT JOIN | LEFT OUTER JOIN | RIGHT JOIN | RIGHT OUTER JOIN | FULL JOIN | FULL OUTER JOIN
JoinCond ::= ON Expr | USING '(' ExprList ')'
TablePrim ::= TableName Alias? SystemTime? TableOp? Sample? | '(' InQueryN ')' Alias? TableOp? Sample? | '(' TableExprN ')' | UNNEST '(' Expr ')' Alias? WithOffset?
   | TvfName '(' TableArgs? ')' Alias?
QueryN ::= With QueryBody | SelQ
TableExprN ::= TableName Alias? SystemTime? TableOp? Sample? Joins
TableOp ::= Pivot | Unpivot | MatchRecognize
Pivot ::= PIVOT PivotConfig Alias?
PivotConfig ::= '(' AliasedList FOR NAME PivotIn ')'
PivotIn ::= IN '(' AliasedList ')'
Unpivot ::= UNPIVOT UnpivotNulls? UnpivotConfig Alias?
UnpivotNulls ::= INCLUDE NULLS | EXCLUDE NULLS
UnpivotConfig ::= '(' UnpivotValues FOR ID IN '(' UnpivotItems ')' ')'
UnpivotValues ::= ID | '(' ExprList ')'
UnpivotItems ::= UnpivotItem ',' UnpivotItems | UnpivotItem
UnpivotItem ::= UnpivotValues RowAlias?
RowAlias ::= AS STR | AS NUM | STR | NUM
MatchRecognize ::= MATCH_RECOGNIZE MatchConfig Alias?
MatchConfig ::= '(' PartitionBy? OrderBy Measures? AfterMatch? PATTERN PatternGroup Define Options? ')'
Measures ::= MEASURES NamedExprs
NamedExprs ::= Expr AS NAME ',' NamedExprs | Expr AS NAME
AfterMatch ::= AFTER MATCH SKIP PAST LAST ROW | AFTER MATCH SKIP TO NEXT ROW
Define ::= DEFINE Definitions
Definitions ::= ID AS Expr ',' Definitions | ID AS Expr
PatternGroup ::= '(' PatternSeq PatternOrs ')'
PatternSeq ::= ε | PatternUnit PatternSeq
PatternOrs ::= ε | '|' PatternSeq PatternOrs
PatternUnit ::= ID Suffixes | PatternGroup Suffixes
Suffixes ::= ε | Suffix Suffixes
Suffix ::= '?' | '+' | '*'
TvfName ::= ID TvfRest
TvfRest ::= ε | '.' ID TvfRest
TableName ::= NAME NameRest
NameRest ::= ε | '.' NAME NameRest
SystemTime ::= FOR SYSTEM_TIME AS OF Expr
Sample ::= TABLESAMPLE SYSTEM '(' Expr PERCENT ')'
WithOffset ::= WITH OFFSET | WITH OFFSET Alias
TableArgs ::= TableArg ',' TableArgs | TableArg
TableArg ::= TABLE TableName | MODEL TableName | Expr

# --- expressions ----------------------------------------------------------------------------------
ExprList ::= Expr ',' ExprList | Expr
Expr ::= NotUnary Tail
NotUnary ::= NOT NotUnary | Unary
Unary ::= Primary | '-' Unary | '+' Unary | '~' Unary
Tail ::= ε | OpChunk Tail
OpChunk ::= ArithOp Unary | CompOp Unary | IS NOT? IsWhat | IS NOT? DISTINCT FROM Unary | InOp '(' ExprList ')' | InOp '(' InQueryE ')'
   | InOp UNNEST '(' Expr ')' | BetweenOp Unary TailB AND Unary | LikeOp Unary | LogicOp NotUnary
InOp ::= IN | NOT IN
BetweenOp ::= BETWEEN | NOT BETWEEN
LikeOp ::= LIKE | NOT LIKE
IsWhat ::= NULL | TRUE | FALSE
ArithOp ::= '*' | '/' | '||' | '+' | '-' | '<<' | '>>' | '&' | '^' | '|'
CompOp ::= '=' | '<' | '>' | '<=' | '>=' | '!=' | '<>'
LogicOp ::= AND | OR
TailB ::= ε | ArithOp Unary TailB
Primary ::= NAME '(' CallArgs ')' Over? Post | NAME Post | NUM | STR | PAR Post | TRUE | FALSE | NULL | TypedLit
   | RANGE '<' Type '>' STR
   | '(' InQueryE ')' Post | '(' ')' Post | '(' ExprList ')' Post | '[' ']' Post | '[' ExprList ']' Post
   | ARRAY '(' InQueryE ')' Post | ARRAY '<' Type '>' '[' ExprList ']' Post | ARRAY '<' Type '>' '[' ']' Post | ARRAY '[' ExprList ']' Post | ARRAY '[' ']' Post
   | STRUCT '(' ')' Post | STRUCT '(' AliasedList ')' Post | STRUCT '<' FieldList '>' '(' AliasedList ')' Post
   | CASE Expr? CaseArms CaseElse? END
   | CAST '(' Expr AS Type CastFormat? ')' Post | SAFE_CAST '(' Expr AS Type CastFormat? ')' Post
   | EXTRACT '(' Expr FROM Expr AtTimeZone? ')' Post | EXISTS '(' InQueryE ')' | FuncWord '(' CallArgs ')' Post
   | INTERVAL Expr ID | INTERVAL Expr ID TO ID
FuncWord ::= IF | LEFT | RIGHT
TypedLit ::= DateWord STR | RawWord STR | DateWord RawWord STR
DateWord ::= DATE | TIME | DATETIME | TIMESTAMP | NUMERIC | BIGNUMERIC | DECIMAL | BIGDECIMAL | JSON
RawWord ::= B | R | BR | RB
Post ::= ε | PostStep Post
PostStep ::= '[' Expr ']' | '.' WORD | '.' ID '(' CallArgs ')' Over?
CallArgs ::= ε | '*' | DISTINCT? Args AggMods
Args ::= Arg ',' Args | Arg
Arg ::= Expr | ID '=>' Expr
AggMods ::= NullsMod? AggHaving | NullsMod? OrderBy? AggLimit?
NullsMod ::= RESPECT NULLS | IGNORE NULLS
AggLimit ::= LIMIT Expr
AggHaving ::= HAVING MAX Expr | HAVING MIN Expr
Over ::= OVER WindowSpec
CaseArms ::= CaseArm | CaseArm CaseArms
CaseArm ::= WHEN Expr THEN Expr
CaseElse ::= ELSE Expr
CastFormat ::= FORMAT Expr
AtTimeZone ::= AT TIME ZONE Expr

# --- types ----------------------------------------------------------------------------------------
Type ::= NAME | NAME '(' ExprList ')' | INTERVAL | ARRAY '<' Type '>' | RANGE '<' Type '>' | STRUCT '<' FieldList '>'
FieldList ::= Field ',' FieldList | Field
Field ::= NAME Type | NAME | ARRAY '<' Type '>' | STRUCT '<' FieldList '>'
SchemaType ::= NAME | NAME '(' ExprList ')' | INTERVAL | ARRAY '<' SchemaType FieldRest '>' | RANGE '<' SchemaType FieldRest '>' | STRUCT '<' SchemaFields '>'
SchemaFields ::= SchemaField ',' SchemaFields | SchemaField
SchemaField ::= NAME SchemaType FieldRest | NAME | ARRAY '<' SchemaType FieldRest '>' FieldRest | STRUCT '<' SchemaFields '>' FieldRest
FieldRest ::= ColumnCollate? FieldEnd
FieldEnd ::= ε | Options | NOT NULL Options?
