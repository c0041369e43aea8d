import Verif.Spec.Lexer
/-!
Generated by tools/grammar.py from tools/grammar.bnf: a grammar of scripts.  It says nothing about the
parser; `Props.C37_*` shows that the parser accepts every script derived from it.
-/
namespace Verif.Spec

/-- Nonterminal symbols. -/
inductive NT
  | Statement | Plain | Block | Step | PlainStep | Jump | JumpWord | Insert | InsertInput
  | PipeInsert | InsertRows | Rows | Row | ValueList | Value | Delete | Truncate | Update
  | UpdateSet | SetItems | SetItem | Merge | MergeSource | Whens | When | MatchedBy | MatchedAnd
  | MergeAction | MergeInput | OrReplace | IfNotExists | IfExists | Options | Connection
  | NamedConnection | Collate | ClusterBy | CreateSchema | CreateIndex | IndexKind | IndexCols
  | Storing | CreateTable | TableEnd | TempWord | TableSource | CloneOf | PartitionColumns | AsQuery
  | PipeTable | Columns | ColumnList | Column | PlainColumns | PlainColumnList | PlainColumn
  | ColumnRest | ColumnMore | ColumnCollate | ColumnKey | References | ColumnConstraint | Enforced
  | ColumnDefault | ColumnEnd | TableConstraint | TableKey | ConstraintName | CreateView | ViewBody
  | PipeView | ViewColumns | ViewColumnList | CreateFunction | PipeFunction | Parameters
  | ParameterList | Parameter | ParamType | NotAggregate | Returns | ReturnType | FunctionBody
  | LanguageBody | Determinism | CreateProcedure | ProcParameters | ProcParameterList
  | ProcParameter | ParamMode | ExternalSecurity | ProcBody | CreatePolicy | GrantTo | CreateModel
  | Transform | Input | Output | Remote | ModelQuery | CreateReservation | ReservationKind
  | ReservationBody | AlterSchema | SchemaChange | AlterTable | TableChange | AddColumns | AddColumn
  | AddConstraints | RenameColumns | RenameColumn | DropParts | DropPart | AlterColumn
  | ColumnChange | AlterView | ViewChange | AlterIndex | AlterOther | DropPolicy | Drop | DropKind
  | DropMode | Undrop | Grant | Revoke | GrantKind | Declare | Variables | DefaultValue | Set
  | Execute | IntoVars | UsingArgs | Begin | BeginBlock | Handler | If | ElseIfs | Else | Case
  | CaseSteps | CaseStep | Loop | Repeat | While | For | ParQ0 | Transaction | TxWord | Raise
  | RaiseUsing | Call | Assert | AssertAs | ExportData | PipeExport | ExportModel | Load | LoadMode
  | LoadPartitions | Query | QueryBody | With | Ctes | Cte | SelQ | SelRest | SelExcept | SelMethod
  | ParRest1 | ParQ | ParRest | SetOp | SetOpU | SetOpE | SetOpM | SetMethod | SetKind | SetName
  | Corresponding | OrderBy | OrderItems | Ord | NullOrder | Limit | SelectCore | SelectOnly
  | Privacy | SelectFrom | Clauses | SelMod | SelAs | SelectList | SelectItem | WithArgs | DotBase
  | StarMod | Alias | AliasedList | FromClause | Where | GroupBy | GroupItems | Having | Qualify
  | Window | WindowDefs | WindowDef | WindowSpec | PartitionBy | Frame | FrameUnit | FrameBound
  | InQuery | InQueryN | InQueryE | PipeQuery | SelPipe | SelPipeN | ParPipe | WithPipe | SelHeadN
  | FromHead | TableExprP | JoinsP | TablePrimP | Pipes | PipeOp | PipeWord | PipeGroupBy
  | PipeGroupItems | PipeInputs | PipeJoin | TableExpr | Joins | JoinKind | JoinCond | TablePrim
  | QueryN | TableExprN | TableOp | Pivot | PivotConfig | PivotIn | Unpivot | UnpivotNulls
  | UnpivotConfig | UnpivotValues | UnpivotItems | UnpivotItem | RowAlias | MatchRecognize
  | MatchConfig | Measures | NamedExprs | AfterMatch | Define | Definitions | PatternGroup
  | PatternSeq | PatternOrs | PatternUnit | Suffixes | Suffix | TvfName | TvfRest | TableName
  | NameRest | SystemTime | Sample | WithOffset | TableArgs | TableArg | ExprList | Expr | NotUnary
  | Unary | Tail | OpChunk | InOp | BetweenOp | LikeOp | IsWhat | ArithOp | CompOp | LogicOp | TailB
  | Primary | FuncWord | TypedLit | DateWord | RawWord | Post | PostStep | CallArgs | Args | Arg
  | AggMods | NullsMod | AggLimit | AggHaving | Over | CaseArms | CaseArm | CaseElse | CastFormat
  | AtTimeZone | Type | FieldList | Field | SchemaType | SchemaFields | SchemaField | FieldRest
  | FieldEnd | IdOpt | IntoOpt | FromOpt | AliasOpt | FromClauseOpt | WhereOpt | NotOpt
  | MatchedByOpt | MatchedAndOpt | ExternalOpt | IfNotExistsOpt | CollateOpt | ConnectionOpt
  | OptionsOpt | OrReplaceOpt | StoringOpt | PartitionByOpt | TempWordOpt | TableSourceOpt
  | ColumnsOpt | ClusterByOpt | PartitionColumnsOpt | AsQueryOpt | PlainColumnsOpt
  | ColumnCollateOpt | EnforcedOpt | ViewColumnsOpt | AggregateOpt | ReturnsOpt | NotAggregateOpt
  | NamedConnectionOpt | ExternalSecurityOpt | GrantToOpt | TransformOpt | InputOpt | OutputOpt
  | RemoteOpt | ModelQueryOpt | ReservationBodyOpt | IfExistsOpt | MaterializedOpt | TableNameOpt
  | DropModeOpt | DefaultValueOpt | IntoVarsOpt | UsingArgsOpt | HandlerOpt | ElseOpt | ExprOpt
  | RaiseUsingOpt | AssertAsOpt | LoadPartitionsOpt | RecursiveOpt | OrderByOpt | LimitOpt
  | SetNameOpt | OrdOpt | PrivacyOpt | SelModOpt | SelAsOpt | GroupByOpt | HavingOpt | QualifyOpt
  | WindowOpt | StarModOpt | FrameOpt | JoinCondOpt | SystemTimeOpt | TableOpOpt | SampleOpt
  | WithOffsetOpt | TableArgsOpt | PipeGroupByOpt | UnpivotNullsOpt | RowAliasOpt | MeasuresOpt
  | AfterMatchOpt | OverOpt | CaseElseOpt | CastFormatOpt | AtTimeZoneOpt | DistinctOpt
  | NullsModOpt | AggLimitOpt
  deriving DecidableEq, Repr, Inhabited

/-- All nonterminal symbols. -/
def NT.all : List NT := [.Statement, .Plain, .Block, .Step, .PlainStep, .Jump, .JumpWord, .Insert, .InsertInput, .PipeInsert, .InsertRows, .Rows, .Row, .ValueList, .Value, .Delete, .Truncate, .Update, .UpdateSet, .SetItems, .SetItem, .Merge, .MergeSource, .Whens, .When, .MatchedBy, .MatchedAnd, .MergeAction, .MergeInput, .OrReplace, .IfNotExists, .IfExists, .Options, .Connection, .NamedConnection, .Collate, .ClusterBy, .CreateSchema, .CreateIndex, .IndexKind, .IndexCols, .Storing, .CreateTable, .TableEnd, .TempWord, .TableSource, .CloneOf, .PartitionColumns, .AsQuery, .PipeTable, .Columns, .ColumnList, .Column, .PlainColumns, .PlainColumnList, .PlainColumn, .ColumnRest, .ColumnMore, .ColumnCollate, .ColumnKey, .References, .ColumnConstraint, .Enforced, .ColumnDefault, .ColumnEnd, .TableConstraint, .TableKey, .ConstraintName, .CreateView, .ViewBody, .PipeView, .ViewColumns, .ViewColumnList, .CreateFunction, .PipeFunction, .Parameters, .ParameterList, .Parameter, .ParamType, .NotAggregate, .Returns, .ReturnType, .FunctionBody, .LanguageBody, .Determinism, .CreateProcedure, .ProcParameters, .ProcParameterList, .ProcParameter, .ParamMode, .ExternalSecurity, .ProcBody, .CreatePolicy, .GrantTo, .CreateModel, .Transform, .Input, .Output, .Remote, .ModelQuery, .CreateReservation, .ReservationKind, .ReservationBody, .AlterSchema, .SchemaChange, .AlterTable, .TableChange, .AddColumns, .AddColumn, .AddConstraints, .RenameColumns, .RenameColumn, .DropParts, .DropPart, .AlterColumn, .ColumnChange, .AlterView, .ViewChange, .AlterIndex, .AlterOther, .DropPolicy, .Drop, .DropKind, .DropMode, .Undrop, .Grant, .Revoke, .GrantKind, .Declare, .Variables, .DefaultValue, .Set, .Execute, .IntoVars, .UsingArgs, .Begin, .BeginBlock, .Handler, .If, .ElseIfs, .Else, .Case, .CaseSteps, .CaseStep, .Loop, .Repeat, .While, .For, .ParQ0, .Transaction, .TxWord, .Raise, .RaiseUsing, .Call, .Assert, .AssertAs, .ExportData, .PipeExport, .ExportModel, .Load, .LoadMode, .LoadPartitions, .Query, .QueryBody, .With, .Ctes, .Cte, .SelQ, .SelRest, .SelExcept, .SelMethod, .ParRest1, .ParQ, .ParRest, .SetOp, .SetOpU, .SetOpE, .SetOpM, .SetMethod, .SetKind, .SetName, .Corresponding, .OrderBy, .OrderItems, .Ord, .NullOrder, .Limit, .SelectCore, .SelectOnly, .Privacy, .SelectFrom, .Clauses, .SelMod, .SelAs, .SelectList, .SelectItem, .WithArgs, .DotBase, .StarMod, .Alias, .AliasedList, .FromClause, .Where, .GroupBy, .GroupItems, .Having, .Qualify, .Window, .WindowDefs, .WindowDef, .WindowSpec, .PartitionBy, .Frame, .FrameUnit, .FrameBound, .InQuery, .InQueryN, .InQueryE, .PipeQuery, .SelPipe, .SelPipeN, .ParPipe, .WithPipe, .SelHeadN, .FromHead, .TableExprP, .JoinsP, .TablePrimP, .Pipes, .PipeOp, .PipeWord, .PipeGroupBy, .PipeGroupItems, .PipeInputs, .PipeJoin, .TableExpr, .Joins, .JoinKind, .JoinCond, .TablePrim, .QueryN, .TableExprN, .TableOp, .Pivot, .PivotConfig, .PivotIn, .Unpivot, .UnpivotNulls, .UnpivotConfig, .UnpivotValues, .UnpivotItems, .UnpivotItem, .RowAlias, .MatchRecognize, .MatchConfig, .Measures, .NamedExprs, .AfterMatch, .Define, .Definitions, .PatternGroup, .PatternSeq, .PatternOrs, .PatternUnit, .Suffixes, .Suffix, .TvfName, .TvfRest, .TableName, .NameRest, .SystemTime, .Sample, .WithOffset, .TableArgs, .TableArg, .ExprList, .Expr, .NotUnary, .Unary, .Tail, .OpChunk, .InOp, .BetweenOp, .LikeOp, .IsWhat, .ArithOp, .CompOp, .LogicOp, .TailB, .Primary, .FuncWord, .TypedLit, .DateWord, .RawWord, .Post, .PostStep, .CallArgs, .Args, .Arg, .AggMods, .NullsMod, .AggLimit, .AggHaving, .Over, .CaseArms, .CaseArm, .CaseElse, .CastFormat, .AtTimeZone, .Type, .FieldList, .Field, .SchemaType, .SchemaFields, .SchemaField, .FieldRest, .FieldEnd, .IdOpt, .IntoOpt, .FromOpt, .AliasOpt, .FromClauseOpt, .WhereOpt, .NotOpt, .MatchedByOpt, .MatchedAndOpt, .ExternalOpt, .IfNotExistsOpt, .CollateOpt, .ConnectionOpt, .OptionsOpt, .OrReplaceOpt, .StoringOpt, .PartitionByOpt, .TempWordOpt, .TableSourceOpt, .ColumnsOpt, .ClusterByOpt, .PartitionColumnsOpt, .AsQueryOpt, .PlainColumnsOpt, .ColumnCollateOpt, .EnforcedOpt, .ViewColumnsOpt, .AggregateOpt, .ReturnsOpt, .NotAggregateOpt, .NamedConnectionOpt, .ExternalSecurityOpt, .GrantToOpt, .TransformOpt, .InputOpt, .OutputOpt, .RemoteOpt, .ModelQueryOpt, .ReservationBodyOpt, .IfExistsOpt, .MaterializedOpt, .TableNameOpt, .DropModeOpt, .DefaultValueOpt, .IntoVarsOpt, .UsingArgsOpt, .HandlerOpt, .ElseOpt, .ExprOpt, .RaiseUsingOpt, .AssertAsOpt, .LoadPartitionsOpt, .RecursiveOpt, .OrderByOpt, .LimitOpt, .SetNameOpt, .OrdOpt, .PrivacyOpt, .SelModOpt, .SelAsOpt, .GroupByOpt, .HavingOpt, .QualifyOpt, .WindowOpt, .StarModOpt, .FrameOpt, .JoinCondOpt, .SystemTimeOpt, .TableOpOpt, .SampleOpt, .WithOffsetOpt, .TableArgsOpt, .PipeGroupByOpt, .UnpivotNullsOpt, .RowAliasOpt, .MeasuresOpt, .AfterMatchOpt, .OverOpt, .CaseElseOpt, .CastFormatOpt, .AtTimeZoneOpt, .DistinctOpt, .NullsModOpt, .AggLimitOpt]

/-- Words of the parser that are no reserved words and may be used as names. -/
def softWords : List Kw := [.DATE, .TIME, .DATETIME, .TIMESTAMP, .NUMERIC, .BIGNUMERIC, .DECIMAL, .BIGDECIMAL, .JSON, .ADD, .AFTER, .AGGREGATE, .ALTER, .ASSERT, .ASSIGNMENT, .BEGIN, .BI_CAPACITY, .BREAK, .CALL, .CAPACITY, .CASCADE, .CLONE, .CLUSTER, .COLUMN, .COMMIT, .CONNECTION, .CONTINUE, .COPY, .CORRESPONDING, .DATA, .DECLARE, .DELETE, .DETERMINISTIC, .DROP, .ELSEIF, .ENFORCED, .EXCEPTION, .EXECUTE, .EXPORT, .EXTEND, .EXTERNAL, .FIRST, .FORMAT, .GRANT, .INCLUDE, .INPUT, .INSERT, .ITERATE, .KEY, .LANGUAGE, .LAST, .LEAVE, .LOAD, .LOOP, .MATCH_RECOGNIZE, .MATERIALIZED, .MEASURES, .ORGANIZATION, .OUTPUT, .OVERWRITE, .PARTITIONS, .PATTERN, .PIVOT, .PROCEDURE, .PROJECT, .RAISE, .REFERENCES, .REMOTE, .RENAME, .REPEAT, .REPLACE, .REPLICA, .RESERVATION, .RESTRICT, .RETURN, .RETURNS, .REVOKE, .ROLLBACK, .SCHEMA, .SEARCH, .SNAPSHOT, .STORING, .STRICT, .TEMP, .TEMPORARY, .TRANSACTION, .TRANSFORM, .TRUNCATE, .UNDROP, .UNPIVOT, .UNTIL, .UPDATE, .VECTOR, .VIEW, .WHILE]

/-- Terminal symbols. -/
inductive Term
  /-- a word or symbol known to the parser -/
  | kw (k : Kw)
  /-- another word -/
  | word (s : Str)
  /-- a name that is no word known to the parser: `[A-Za-z_][A-Za-z0-9_]*` or a name in back quotes -/
  | ident
  /-- a name, or one of `softWords` -/
  | name
  /-- any word at all, or a name in back quotes -/
  | anyWord
  | number
  | string
  /-- a parameter, `@name` or `?` -/
  | param
  deriving DecidableEq, Repr

/-- Symbols of the grammar. -/
inductive Sym
  | t (a : Term)
  | nt (n : NT)
  deriving DecidableEq, Repr

/-- The literal is the given text in upper or lower case (`Char.toUpper` only changes ASCII letters). -/
def IsWord (l s : Str) : Prop := l.map Char.toUpper = s

/-- The literal is a name in back quotes. -/
def BackQuoted (l : Str) : Prop := ∃ b, l = '`' :: (b ++ ['`'])

/-- The literal is a string. -/
def StringText (l : Str) : Prop := ∃ q b, (q = '\'' ∨ q = '"') ∧ l = q :: (b ++ [q])

/-- A literal matches a terminal symbol. -/
def TermMatches : Term → Str → Prop
  | .kw k, l => IsWord l k.lit
  | .word s, l => IsWord l s
  | .ident, l => BackQuoted l ∨ (PlainIdentifier l ∧ ∀ k, ¬ IsWord l (Kw.lit k))
  | .name, l => BackQuoted l ∨ (PlainIdentifier l ∧ ∀ k, IsWord l (Kw.lit k) → k ∈ softWords)
  | .anyWord, l => BackQuoted l ∨ PlainIdentifier l
  | .number, l => NumericSyntax l
  | .string, l => StringText l
  | .param, l => (∃ r, l = '@' :: r) ∨ l = ['?']

/-- The rules of the grammar. -/
def rules : NT → List (List Sym)
-- Statement ::= Plain | PipeInsert | PipeTable | PipeView | PipeFunction | PipeExport
  | .Statement => [[.nt .Plain],
      [.nt .PipeInsert],
      [.nt .PipeTable],
      [.nt .PipeView],
      [.nt .PipeFunction],
      [.nt .PipeExport]]
-- Plain ::= PipeQuery | Query | Insert | Delete | Truncate | Update | Merge | CreateSchema | 
-- CreateIndex | CreateTable | CreateView | CreateFunction | CreateProcedure | CreatePolicy | 
-- CreateModel | CreateReservation | AlterSchema | AlterTable | AlterColumn | AlterView | AlterIndex | 
-- AlterOther | DropPolicy | Drop | Undrop | Grant | Revoke | Declare | Set | Execute | Begin | If | 
-- Case | Loop | Repeat | While | For | Transaction | Raise | RETURN | Call | Assert | ExportData | 
-- ExportModel | Load
  | .Plain => [[.nt .PipeQuery],
      [.nt .Query],
      [.nt .Insert],
      [.nt .Delete],
      [.nt .Truncate],
      [.nt .Update],
      [.nt .Merge],
      [.nt .CreateSchema],
      [.nt .CreateIndex],
      [.nt .CreateTable],
      [.nt .CreateView],
      [.nt .CreateFunction],
      [.nt .CreateProcedure],
      [.nt .CreatePolicy],
      [.nt .CreateModel],
      [.nt .CreateReservation],
      [.nt .AlterSchema],
      [.nt .AlterTable],
      [.nt .AlterColumn],
      [.nt .AlterView],
      [.nt .AlterIndex],
      [.nt .AlterOther],
      [.nt .DropPolicy],
      [.nt .Drop],
      [.nt .Undrop],
      [.nt .Grant],
      [.nt .Revoke],
      [.nt .Declare],
      [.nt .Set],
      [.nt .Execute],
      [.nt .Begin],
      [.nt .If],
      [.nt .Case],
      [.nt .Loop],
      [.nt .Repeat],
      [.nt .While],
      [.nt .For],
      [.nt .Transaction],
      [.nt .Raise],
      [.t (.kw .RETURN)],
      [.nt .Call],
      [.nt .Assert],
      [.nt .ExportData],
      [.nt .ExportModel],
      [.nt .Load]]
-- Block ::= ε | Step ';' Block
  | .Block => [[],
      [.nt .Step, .t (.kw .sym_semi), .nt .Block]]
-- Step ::= Statement | Jump
  | .Step => [[.nt .Statement],
      [.nt .Jump]]
-- PlainStep ::= Plain | Jump
  | .PlainStep => [[.nt .Plain],
      [.nt .Jump]]
-- Jump ::= JumpWord ID?
  | .Jump => [[.nt .JumpWord, .nt .IdOpt]]
-- JumpWord ::= BREAK | LEAVE | CONTINUE | ITERATE
  | .JumpWord => [[.t (.kw .BREAK)],
      [.t (.kw .LEAVE)],
      [.t (.kw .CONTINUE)],
      [.t (.kw .ITERATE)]]
-- Insert ::= INSERT INTO? TableName '(' ExprList ')' InsertInput | INSERT INTO? TableName InsertRows | 
-- INSERT INTO? TableName QueryN
  | .Insert => [[.t (.kw .INSERT), .nt .IntoOpt, .nt .TableName, .t (.kw .sym_lparen), .nt .ExprList, .t (.kw .sym_rparen), .nt .InsertInput],
      [.t (.kw .INSERT), .nt .IntoOpt, .nt .TableName, .nt .InsertRows],
      [.t (.kw .INSERT), .nt .IntoOpt, .nt .TableName, .nt .QueryN]]
-- InsertInput ::= InsertRows | Query
  | .InsertInput => [[.nt .InsertRows],
      [.nt .Query]]
-- PipeInsert ::= INSERT INTO? TableName '(' ExprList ')' SelPipe
  | .PipeInsert => [[.t (.kw .INSERT), .nt .IntoOpt, .nt .TableName, .t (.kw .sym_lparen), .nt .ExprList, .t (.kw .sym_rparen), .nt .SelPipe]]
-- InsertRows ::= VALUES Rows
  | .InsertRows => [[.t (.kw .VALUES), .nt .Rows]]
-- Rows ::= Row ',' Rows | Row
  | .Rows => [[.nt .Row, .t (.kw .sym_comma), .nt .Rows],
      [.nt .Row]]
-- Row ::= '(' ValueList ')'
  | .Row => [[.t (.kw .sym_lparen), .nt .ValueList, .t (.kw .sym_rparen)]]
-- ValueList ::= Value ',' ValueList | Value
  | .ValueList => [[.nt .Value, .t (.kw .sym_comma), .nt .ValueList],
      [.nt .Value]]
-- Value ::= Expr | DEFAULT
  | .Value => [[.nt .Expr],
      [.t (.kw .DEFAULT)]]
-- Delete ::= DELETE FROM? TableName Alias? WHERE Expr
  | .Delete => [[.t (.kw .DELETE), .nt .FromOpt, .nt .TableName, .nt .AliasOpt, .t (.kw .WHERE), .nt .Expr]]
-- Truncate ::= TRUNCATE TABLE TableName
  | .Truncate => [[.t (.kw .TRUNCATE), .t (.kw .TABLE), .nt .TableName]]
-- Update ::= UPDATE TablePrim Joins UpdateSet
  | .Update => [[.t (.kw .UPDATE), .nt .TablePrim, .nt .Joins, .nt .UpdateSet]]
-- UpdateSet ::= SET SetItems FromClause? Where?
  | .UpdateSet => [[.t (.kw .SET), .nt .SetItems, .nt .FromClauseOpt, .nt .WhereOpt]]
-- SetItems ::= SetItem ',' SetItems | SetItem
  | .SetItems => [[.nt .SetItem, .t (.kw .sym_comma), .nt .SetItems],
      [.nt .SetItem]]
-- SetItem ::= Expr | NAME Post '=' DEFAULT
  | .SetItem => [[.nt .Expr],
      [.t .name, .nt .Post, .t (.kw .sym_eq), .t (.kw .DEFAULT)]]
-- Merge ::= MERGE INTO? TableName Alias? USING MergeSource ON Expr Whens
  | .Merge => [[.t (.kw .MERGE), .nt .IntoOpt, .nt .TableName, .nt .AliasOpt, .t (.kw .USING), .nt .MergeSource, .t (.kw .ON), .nt .Expr, .nt .Whens]]
-- MergeSource ::= NAME Post Alias? | '(' InQueryE ')' Alias?
  | .MergeSource => [[.t .name, .nt .Post, .nt .AliasOpt],
      [.t (.kw .sym_lparen), .nt .InQueryE, .t (.kw .sym_rparen), .nt .AliasOpt]]
-- Whens ::= When | When Whens
  | .Whens => [[.nt .When],
      [.nt .When, .nt .Whens]]
-- When ::= WHEN NOT? MATCHED MatchedBy? MatchedAnd? THEN MergeAction
  | .When => [[.t (.kw .WHEN), .nt .NotOpt, .t (.word ['M', 'A', 'T', 'C', 'H', 'E', 'D']), .nt .MatchedByOpt, .nt .MatchedAndOpt, .t (.kw .THEN), .nt .MergeAction]]
-- MatchedBy ::= BY TARGET | BY SOURCE
  | .MatchedBy => [[.t (.kw .BY), .t (.word ['T', 'A', 'R', 'G', 'E', 'T'])],
      [.t (.kw .BY), .t (.word ['S', 'O', 'U', 'R', 'C', 'E'])]]
-- MatchedAnd ::= AND Expr
  | .MatchedAnd => [[.t (.kw .AND), .nt .Expr]]
-- MergeAction ::= DELETE | UPDATE SET SetItems | INSERT MergeInput | INSERT '(' ExprList ')' 
-- MergeInput
  | .MergeAction => [[.t (.kw .DELETE)],
      [.t (.kw .UPDATE), .t (.kw .SET), .nt .SetItems],
      [.t (.kw .INSERT), .nt .MergeInput],
      [.t (.kw .INSERT), .t (.kw .sym_lparen), .nt .ExprList, .t (.kw .sym_rparen), .nt .MergeInput]]
-- MergeInput ::= ROW | VALUES Row
  | .MergeInput => [[.t (.kw .ROW)],
      [.t (.kw .VALUES), .nt .Row]]
-- OrReplace ::= OR REPLACE
  | .OrReplace => [[.t (.kw .OR), .t (.kw .REPLACE)]]
-- IfNotExists ::= IF NOT EXISTS
  | .IfNotExists => [[.t (.kw .IF), .t (.kw .NOT), .t (.kw .EXISTS)]]
-- IfExists ::= IF EXISTS
  | .IfExists => [[.t (.kw .IF), .t (.kw .EXISTS)]]
-- Options ::= OPTIONS '(' ')' | OPTIONS '(' ExprList ')'
  | .Options => [[.t (.kw .OPTIONS), .t (.kw .sym_lparen), .t (.kw .sym_rparen)],
      [.t (.kw .OPTIONS), .t (.kw .sym_lparen), .nt .ExprList, .t (.kw .sym_rparen)]]
-- Connection ::= WITH CONNECTION TableName | WITH CONNECTION DEFAULT
  | .Connection => [[.t (.kw .WITH), .t (.kw .CONNECTION), .nt .TableName],
      [.t (.kw .WITH), .t (.kw .CONNECTION), .t (.kw .DEFAULT)]]
-- NamedConnection ::= WITH CONNECTION TableName
  | .NamedConnection => [[.t (.kw .WITH), .t (.kw .CONNECTION), .nt .TableName]]
-- Collate ::= DEFAULT COLLATE STR
  | .Collate => [[.t (.kw .DEFAULT), .t (.kw .COLLATE), .t .string]]
-- ClusterBy ::= CLUSTER BY ExprList
  | .ClusterBy => [[.t (.kw .CLUSTER), .t (.kw .BY), .nt .ExprList]]
-- CreateSchema ::= CREATE EXTERNAL? SCHEMA IfNotExists? TableName Collate? Connection? Options?
  | .CreateSchema => [[.t (.kw .CREATE), .nt .ExternalOpt, .t (.kw .SCHEMA), .nt .IfNotExistsOpt, .nt .TableName, .nt .CollateOpt, .nt .ConnectionOpt, .nt .OptionsOpt]]
-- CreateIndex ::= CREATE OrReplace? IndexKind INDEX IfNotExists? TableName ON TableName IndexCols 
-- Storing? PartitionBy? Options?
  | .CreateIndex => [[.t (.kw .CREATE), .nt .OrReplaceOpt, .nt .IndexKind, .t (.word ['I', 'N', 'D', 'E', 'X']), .nt .IfNotExistsOpt, .nt .TableName, .t (.kw .ON), .nt .TableName, .nt .IndexCols, .nt .StoringOpt, .nt .PartitionByOpt, .nt .OptionsOpt]]
-- IndexKind ::= SEARCH | VECTOR
  | .IndexKind => [[.t (.kw .SEARCH)],
      [.t (.kw .VECTOR)]]
-- IndexCols ::= '(' ALL COLUMNS ')' | '(' ExprList ')'
  | .IndexCols => [[.t (.kw .sym_lparen), .t (.kw .ALL), .t (.word ['C', 'O', 'L', 'U', 'M', 'N', 'S']), .t (.kw .sym_rparen)],
      [.t (.kw .sym_lparen), .nt .ExprList, .t (.kw .sym_rparen)]]
-- Storing ::= STORING '(' ExprList ')'
  | .Storing => [[.t (.kw .STORING), .t (.kw .sym_lparen), .nt .ExprList, .t (.kw .sym_rparen)]]
-- CreateTable ::= CREATE OrReplace? TempWord? TABLE IfNotExists? TableName TableSource? Columns? 
-- Collate? PartitionBy? ClusterBy? TableEnd | CREATE OrReplace? SNAPSHOT TABLE IfNotExists? TableName 
-- CloneOf | CREATE OrReplace? EXTERNAL TABLE IfNotExists? TableName Columns? Connection? 
-- PartitionColumns? Options?
  | .CreateTable => [[.t (.kw .CREATE), .nt .OrReplaceOpt, .nt .TempWordOpt, .t (.kw .TABLE), .nt .IfNotExistsOpt, .nt .TableName, .nt .TableSourceOpt, .nt .ColumnsOpt, .nt .CollateOpt, .nt .PartitionByOpt, .nt .ClusterByOpt, .nt .TableEnd],
      [.t (.kw .CREATE), .nt .OrReplaceOpt, .t (.kw .SNAPSHOT), .t (.kw .TABLE), .nt .IfNotExistsOpt, .nt .TableName, .nt .CloneOf],
      [.t (.kw .CREATE), .nt .OrReplaceOpt, .t (.kw .EXTERNAL), .t (.kw .TABLE), .nt .IfNotExistsOpt, .nt .TableName, .nt .ColumnsOpt, .nt .ConnectionOpt, .nt .PartitionColumnsOpt, .nt .OptionsOpt]]
-- TableEnd ::= Options? AsQuery? | CloneOf
  | .TableEnd => [[.nt .OptionsOpt, .nt .AsQueryOpt],
      [.nt .CloneOf]]
-- TempWord ::= TEMP | TEMPORARY
  | .TempWord => [[.t (.kw .TEMP)],
      [.t (.kw .TEMPORARY)]]
-- TableSource ::= LIKE TableName | COPY TableName
  | .TableSource => [[.t (.kw .LIKE), .nt .TableName],
      [.t (.kw .COPY), .nt .TableName]]
-- CloneOf ::= CLONE TableName | CLONE TableName SystemTime Options?
  | .CloneOf => [[.t (.kw .CLONE), .nt .TableName],
      [.t (.kw .CLONE), .nt .TableName, .nt .SystemTime, .nt .OptionsOpt]]
-- PartitionColumns ::= WITH PARTITION COLUMNS PlainColumns?
  | .PartitionColumns => [[.t (.kw .WITH), .t (.kw .PARTITION), .t (.word ['C', 'O', 'L', 'U', 'M', 'N', 'S']), .nt .PlainColumnsOpt]]
-- AsQuery ::= AS Query
  | .AsQuery => [[.t (.kw .AS), .nt .Query]]
-- PipeTable ::= CREATE OrReplace? TempWord? TABLE IfNotExists? TableName TableSource? Columns? 
-- Collate? PartitionBy? ClusterBy? Options? AS SelPipe
  | .PipeTable => [[.t (.kw .CREATE), .nt .OrReplaceOpt, .nt .TempWordOpt, .t (.kw .TABLE), .nt .IfNotExistsOpt, .nt .TableName, .nt .TableSourceOpt, .nt .ColumnsOpt, .nt .CollateOpt, .nt .PartitionByOpt, .nt .ClusterByOpt, .nt .OptionsOpt, .t (.kw .AS), .nt .SelPipe]]
-- Columns ::= '(' ')' | '(' ColumnList ')'
  | .Columns => [[.t (.kw .sym_lparen), .t (.kw .sym_rparen)],
      [.t (.kw .sym_lparen), .nt .ColumnList, .t (.kw .sym_rparen)]]
-- ColumnList ::= Column ',' ColumnList | Column
  | .ColumnList => [[.nt .Column, .t (.kw .sym_comma), .nt .ColumnList],
      [.nt .Column]]
-- Column ::= NAME SchemaType ColumnRest | TableConstraint
  | .Column => [[.t .name, .nt .SchemaType, .nt .ColumnRest],
      [.nt .TableConstraint]]
-- PlainColumns ::= '(' PlainColumnList ')'
  | .PlainColumns => [[.t (.kw .sym_lparen), .nt .PlainColumnList, .t (.kw .sym_rparen)]]
-- PlainColumnList ::= PlainColumn ',' PlainColumnList | PlainColumn
  | .PlainColumnList => [[.nt .PlainColumn, .t (.kw .sym_comma), .nt .PlainColumnList],
      [.nt .PlainColumn]]
-- PlainColumn ::= NAME Type ColumnCollate?
  | .PlainColumn => [[.t .name, .nt .Type, .nt .ColumnCollateOpt]]
-- ColumnRest ::= ColumnCollate? ColumnMore
  | .ColumnRest => [[.nt .ColumnCollateOpt, .nt .ColumnMore]]
-- ColumnMore ::= ColumnKey Enforced ColumnEnd | ColumnKey ColumnDefault | ColumnEnd
  | .ColumnMore => [[.nt .ColumnKey, .nt .Enforced, .nt .ColumnEnd],
      [.nt .ColumnKey, .nt .ColumnDefault],
      [.nt .ColumnEnd]]
-- ColumnCollate ::= COLLATE STR
  | .ColumnCollate => [[.t (.kw .COLLATE), .t .string]]
-- ColumnKey ::= PRIMARY KEY | ColumnConstraint References | References
  | .ColumnKey => [[.t (.kw .PRIMARY), .t (.kw .KEY)],
      [.nt .ColumnConstraint, .nt .References],
      [.nt .References]]
-- References ::= REFERENCES TvfName '(' ExprList ')'
  | .References => [[.t (.kw .REFERENCES), .nt .TvfName, .t (.kw .sym_lparen), .nt .ExprList, .t (.kw .sym_rparen)]]
-- ColumnConstraint ::= CONSTRAINT NAME
  | .ColumnConstraint => [[.t (.kw .CONSTRAINT), .t .name]]
-- Enforced ::= NOT ENFORCED | ENFORCED
  | .Enforced => [[.t (.kw .NOT), .t (.kw .ENFORCED)],
      [.t (.kw .ENFORCED)]]
-- ColumnDefault ::= DEFAULT Expr Options? | Options?
  | .ColumnDefault => [[.t (.kw .DEFAULT), .nt .Expr, .nt .OptionsOpt],
      [.nt .OptionsOpt]]
-- ColumnEnd ::= ColumnDefault | NOT NULL Options?
  | .ColumnEnd => [[.nt .ColumnDefault],
      [.t (.kw .NOT), .t (.kw .NULL), .nt .OptionsOpt]]
-- TableConstraint ::= ConstraintName TableKey | TableKey
  | .TableConstraint => [[.nt .ConstraintName, .nt .TableKey],
      [.nt .TableKey]]
-- TableKey ::= PRIMARY KEY '(' ExprList ')' Enforced? | FOREIGN KEY '(' ExprList ')' References 
-- Enforced?
  | .TableKey => [[.t (.kw .PRIMARY), .t (.kw .KEY), .t (.kw .sym_lparen), .nt .ExprList, .t (.kw .sym_rparen), .nt .EnforcedOpt],
      [.t (.kw .FOREIGN), .t (.kw .KEY), .t (.kw .sym_lparen), .nt .ExprList, .t (.kw .sym_rparen), .nt .References, .nt .EnforcedOpt]]
-- ConstraintName ::= CONSTRAINT IfNotExists? NAME
  | .ConstraintName => [[.t (.kw .CONSTRAINT), .nt .IfNotExistsOpt, .t .name]]
-- CreateView ::= CREATE OrReplace? VIEW IfNotExists? TableName ViewColumns? Options? AS Query | CREATE 
-- OrReplace? MATERIALIZED VIEW IfNotExists? TableName PartitionBy? ClusterBy? Options? ViewBody
  | .CreateView => [[.t (.kw .CREATE), .nt .OrReplaceOpt, .t (.kw .VIEW), .nt .IfNotExistsOpt, .nt .TableName, .nt .ViewColumnsOpt, .nt .OptionsOpt, .t (.kw .AS), .nt .Query],
      [.t (.kw .CREATE), .nt .OrReplaceOpt, .t (.kw .MATERIALIZED), .t (.kw .VIEW), .nt .IfNotExistsOpt, .nt .TableName, .nt .PartitionByOpt, .nt .ClusterByOpt, .nt .OptionsOpt, .nt .ViewBody]]
-- ViewBody ::= AS Query | AS REPLICA OF TableName
  | .ViewBody => [[.t (.kw .AS), .nt .Query],
      [.t (.kw .AS), .t (.kw .REPLICA), .t (.kw .OF), .nt .TableName]]
-- PipeView ::= CREATE OrReplace? VIEW IfNotExists? TableName ViewColumns? Options? AS SelPipe | CREATE 
-- OrReplace? MATERIALIZED VIEW IfNotExists? TableName PartitionBy? ClusterBy? Options? AS SelPipe
  | .PipeView => [[.t (.kw .CREATE), .nt .OrReplaceOpt, .t (.kw .VIEW), .nt .IfNotExistsOpt, .nt .TableName, .nt .ViewColumnsOpt, .nt .OptionsOpt, .t (.kw .AS), .nt .SelPipe],
      [.t (.kw .CREATE), .nt .OrReplaceOpt, .t (.kw .MATERIALIZED), .t (.kw .VIEW), .nt .IfNotExistsOpt, .nt .TableName, .nt .PartitionByOpt, .nt .ClusterByOpt, .nt .OptionsOpt, .t (.kw .AS), .nt .SelPipe]]
-- ViewColumns ::= '(' ViewColumnList ')'
  | .ViewColumns => [[.t (.kw .sym_lparen), .nt .ViewColumnList, .t (.kw .sym_rparen)]]
-- ViewColumnList ::= NAME Options? ',' ViewColumnList | NAME Options?
  | .ViewColumnList => [[.t .name, .nt .OptionsOpt, .t (.kw .sym_comma), .nt .ViewColumnList],
      [.t .name, .nt .OptionsOpt]]
-- CreateFunction ::= CREATE OrReplace? TempWord? AGGREGATE? FUNCTION IfNotExists? TableName Parameters 
-- Returns? FunctionBody | CREATE OrReplace? TABLE FUNCTION IfNotExists? TableName Parameters Returns? 
-- AS Query
  | .CreateFunction => [[.t (.kw .CREATE), .nt .OrReplaceOpt, .nt .TempWordOpt, .nt .AggregateOpt, .t (.kw .FUNCTION), .nt .IfNotExistsOpt, .nt .TableName, .nt .Parameters, .nt .ReturnsOpt, .nt .FunctionBody],
      [.t (.kw .CREATE), .nt .OrReplaceOpt, .t (.kw .TABLE), .t (.kw .FUNCTION), .nt .IfNotExistsOpt, .nt .TableName, .nt .Parameters, .nt .ReturnsOpt, .t (.kw .AS), .nt .Query]]
-- PipeFunction ::= CREATE OrReplace? TABLE FUNCTION IfNotExists? TableName Parameters Returns? AS 
-- SelPipe
  | .PipeFunction => [[.t (.kw .CREATE), .nt .OrReplaceOpt, .t (.kw .TABLE), .t (.kw .FUNCTION), .nt .IfNotExistsOpt, .nt .TableName, .nt .Parameters, .nt .ReturnsOpt, .t (.kw .AS), .nt .SelPipe]]
-- Parameters ::= '(' ')' | '(' ParameterList ')'
  | .Parameters => [[.t (.kw .sym_lparen), .t (.kw .sym_rparen)],
      [.t (.kw .sym_lparen), .nt .ParameterList, .t (.kw .sym_rparen)]]
-- ParameterList ::= Parameter ',' ParameterList | Parameter
  | .ParameterList => [[.nt .Parameter, .t (.kw .sym_comma), .nt .ParameterList],
      [.nt .Parameter]]
-- Parameter ::= NAME ParamType NotAggregate?
  | .Parameter => [[.t .name, .nt .ParamType, .nt .NotAggregateOpt]]
-- ParamType ::= Type | ANY TYPE
  | .ParamType => [[.nt .Type],
      [.t (.kw .ANY), .t (.kw .TYPE)]]
-- NotAggregate ::= NOT AGGREGATE
  | .NotAggregate => [[.t (.kw .NOT), .t (.kw .AGGREGATE)]]
-- Returns ::= RETURNS ReturnType
  | .Returns => [[.t (.kw .RETURNS), .nt .ReturnType]]
-- ReturnType ::= Type | TABLE '<' FieldList '>'
  | .ReturnType => [[.nt .Type],
      [.t (.kw .TABLE), .t (.kw .sym_lt), .nt .FieldList, .t (.kw .sym_gt)]]
-- FunctionBody ::= AS '(' Expr ')' | REMOTE NamedConnection Options? | LanguageBody | Determinism 
-- LanguageBody
  | .FunctionBody => [[.t (.kw .AS), .t (.kw .sym_lparen), .nt .Expr, .t (.kw .sym_rparen)],
      [.t (.kw .REMOTE), .nt .NamedConnection, .nt .OptionsOpt],
      [.nt .LanguageBody],
      [.nt .Determinism, .nt .LanguageBody]]
-- LanguageBody ::= LANGUAGE ID NamedConnection? Options? AS Expr
  | .LanguageBody => [[.t (.kw .LANGUAGE), .t .ident, .nt .NamedConnectionOpt, .nt .OptionsOpt, .t (.kw .AS), .nt .Expr]]
-- Determinism ::= DETERMINISTIC | NOT DETERMINISTIC
  | .Determinism => [[.t (.kw .DETERMINISTIC)],
      [.t (.kw .NOT), .t (.kw .DETERMINISTIC)]]
-- CreateProcedure ::= CREATE OrReplace? PROCEDURE IfNotExists? TableName ProcParameters 
-- ExternalSecurity? Connection? Options? ProcBody
  | .CreateProcedure => [[.t (.kw .CREATE), .nt .OrReplaceOpt, .t (.kw .PROCEDURE), .nt .IfNotExistsOpt, .nt .TableName, .nt .ProcParameters, .nt .ExternalSecurityOpt, .nt .ConnectionOpt, .nt .OptionsOpt, .nt .ProcBody]]
-- ProcParameters ::= '(' ')' | '(' ProcParameterList ')'
  | .ProcParameters => [[.t (.kw .sym_lparen), .t (.kw .sym_rparen)],
      [.t (.kw .sym_lparen), .nt .ProcParameterList, .t (.kw .sym_rparen)]]
-- ProcParameterList ::= ProcParameter ',' ProcParameterList | ProcParameter
  | .ProcParameterList => [[.nt .ProcParameter, .t (.kw .sym_comma), .nt .ProcParameterList],
      [.nt .ProcParameter]]
-- ProcParameter ::= ParamMode NAME ParamType | NAME ParamType
  | .ProcParameter => [[.nt .ParamMode, .t .name, .nt .ParamType],
      [.t .name, .nt .ParamType]]
-- ParamMode ::= IN | OUT | INOUT
  | .ParamMode => [[.t (.kw .IN)],
      [.t (.kw .OUT)],
      [.t (.kw .INOUT)]]
-- ExternalSecurity ::= EXTERNAL SECURITY INVOKER
  | .ExternalSecurity => [[.t (.kw .EXTERNAL), .t (.word ['S', 'E', 'C', 'U', 'R', 'I', 'T', 'Y']), .t (.word ['I', 'N', 'V', 'O', 'K', 'E', 'R'])]]
-- ProcBody ::= BeginBlock | LANGUAGE ID | LANGUAGE ID AS Expr
  | .ProcBody => [[.nt .BeginBlock],
      [.t (.kw .LANGUAGE), .t .ident],
      [.t (.kw .LANGUAGE), .t .ident, .t (.kw .AS), .nt .Expr]]
-- CreatePolicy ::= CREATE OrReplace? ROW ACCESS POLICY IfNotExists? TableName ON TableName GrantTo? 
-- FILTER USING '(' Expr ')'
  | .CreatePolicy => [[.t (.kw .CREATE), .nt .OrReplaceOpt, .t (.kw .ROW), .t (.word ['A', 'C', 'C', 'E', 'S', 'S']), .t (.word ['P', 'O', 'L', 'I', 'C', 'Y']), .nt .IfNotExistsOpt, .nt .TableName, .t (.kw .ON), .nt .TableName, .nt .GrantToOpt, .t (.word ['F', 'I', 'L', 'T', 'E', 'R']), .t (.kw .USING), .t (.kw .sym_lparen), .nt .Expr, .t (.kw .sym_rparen)]]
-- GrantTo ::= GRANT TO '(' ExprList ')'
  | .GrantTo => [[.t (.kw .GRANT), .t (.kw .TO), .t (.kw .sym_lparen), .nt .ExprList, .t (.kw .sym_rparen)]]
-- CreateModel ::= CREATE OrReplace? MODEL IfNotExists? TableName Transform? Input? Output? Remote? 
-- Options? ModelQuery?
  | .CreateModel => [[.t (.kw .CREATE), .nt .OrReplaceOpt, .t (.kw .MODEL), .nt .IfNotExistsOpt, .nt .TableName, .nt .TransformOpt, .nt .InputOpt, .nt .OutputOpt, .nt .RemoteOpt, .nt .OptionsOpt, .nt .ModelQueryOpt]]
-- Transform ::= TRANSFORM '(' SelectList ')'
  | .Transform => [[.t (.kw .TRANSFORM), .t (.kw .sym_lparen), .nt .SelectList, .t (.kw .sym_rparen)]]
-- Input ::= INPUT PlainColumns
  | .Input => [[.t (.kw .INPUT), .nt .PlainColumns]]
-- Output ::= OUTPUT PlainColumns
  | .Output => [[.t (.kw .OUTPUT), .nt .PlainColumns]]
-- Remote ::= REMOTE NamedConnection
  | .Remote => [[.t (.kw .REMOTE), .nt .NamedConnection]]
-- ModelQuery ::= AS QueryN | AS '(' TRAINING_DATA AS '(' InQuery ')' ',' CUSTOM_HOLIDAY AS '(' InQuery 
-- ')' ')'
  | .ModelQuery => [[.t (.kw .AS), .nt .QueryN],
      [.t (.kw .AS), .t (.kw .sym_lparen), .t (.kw .TRAINING_DATA), .t (.kw .AS), .t (.kw .sym_lparen), .nt .InQuery, .t (.kw .sym_rparen), .t (.kw .sym_comma), .t (.word ['C', 'U', 'S', 'T', 'O', 'M', '_', 'H', 'O', 'L', 'I', 'D', 'A', 'Y']), .t (.kw .AS), .t (.kw .sym_lparen), .nt .InQuery, .t (.kw .sym_rparen), .t (.kw .sym_rparen)]]
-- CreateReservation ::= CREATE ReservationKind TableName ReservationBody?
  | .CreateReservation => [[.t (.kw .CREATE), .nt .ReservationKind, .nt .TableName, .nt .ReservationBodyOpt]]
-- ReservationKind ::= CAPACITY | RESERVATION | ASSIGNMENT
  | .ReservationKind => [[.t (.kw .CAPACITY)],
      [.t (.kw .RESERVATION)],
      [.t (.kw .ASSIGNMENT)]]
-- ReservationBody ::= AS JSON Expr | Options
  | .ReservationBody => [[.t (.kw .AS), .t (.kw .JSON), .nt .Expr],
      [.nt .Options]]
-- AlterSchema ::= ALTER SCHEMA IfExists? TableName SchemaChange
  | .AlterSchema => [[.t (.kw .ALTER), .t (.kw .SCHEMA), .nt .IfExistsOpt, .nt .TableName, .nt .SchemaChange]]
-- SchemaChange ::= SET Collate | SET Options | ADD REPLICA TableName Options? | DROP REPLICA TableName
  | .SchemaChange => [[.t (.kw .SET), .nt .Collate],
      [.t (.kw .SET), .nt .Options],
      [.t (.kw .ADD), .t (.kw .REPLICA), .nt .TableName, .nt .OptionsOpt],
      [.t (.kw .DROP), .t (.kw .REPLICA), .nt .TableName]]
-- AlterTable ::= ALTER TABLE IfExists? TableName TableChange
  | .AlterTable => [[.t (.kw .ALTER), .t (.kw .TABLE), .nt .IfExistsOpt, .nt .TableName, .nt .TableChange]]
-- TableChange ::= SET Options | SET Collate | AddColumns | AddConstraints | RENAME TO TableName | 
-- RenameColumns | DropParts | AlterColumn
  | .TableChange => [[.t (.kw .SET), .nt .Options],
      [.t (.kw .SET), .nt .Collate],
      [.nt .AddColumns],
      [.nt .AddConstraints],
      [.t (.kw .RENAME), .t (.kw .TO), .nt .TableName],
      [.nt .RenameColumns],
      [.nt .DropParts],
      [.nt .AlterColumn]]
-- AddColumns ::= AddColumn ',' AddColumns | AddColumn
  | .AddColumns => [[.nt .AddColumn, .t (.kw .sym_comma), .nt .AddColumns],
      [.nt .AddColumn]]
-- AddColumn ::= ADD COLUMN IfNotExists? NAME SchemaType ColumnRest
  | .AddColumn => [[.t (.kw .ADD), .t (.kw .COLUMN), .nt .IfNotExistsOpt, .t .name, .nt .SchemaType, .nt .ColumnRest]]
-- AddConstraints ::= ADD TableConstraint ',' AddConstraints | ADD TableConstraint
  | .AddConstraints => [[.t (.kw .ADD), .nt .TableConstraint, .t (.kw .sym_comma), .nt .AddConstraints],
      [.t (.kw .ADD), .nt .TableConstraint]]
-- RenameColumns ::= RenameColumn ',' RenameColumns | RenameColumn
  | .RenameColumns => [[.nt .RenameColumn, .t (.kw .sym_comma), .nt .RenameColumns],
      [.nt .RenameColumn]]
-- RenameColumn ::= RENAME COLUMN IfExists? NAME TO NAME
  | .RenameColumn => [[.t (.kw .RENAME), .t (.kw .COLUMN), .nt .IfExistsOpt, .t .name, .t (.kw .TO), .t .name]]
-- DropParts ::= DropPart ',' DropParts | DropPart
  | .DropParts => [[.nt .DropPart, .t (.kw .sym_comma), .nt .DropParts],
      [.nt .DropPart]]
-- DropPart ::= DROP COLUMN IfExists? NAME | DROP CONSTRAINT IfExists? NAME | DROP PRIMARY KEY 
-- IfExists?
  | .DropPart => [[.t (.kw .DROP), .t (.kw .COLUMN), .nt .IfExistsOpt, .t .name],
      [.t (.kw .DROP), .t (.kw .CONSTRAINT), .nt .IfExistsOpt, .t .name],
      [.t (.kw .DROP), .t (.kw .PRIMARY), .t (.kw .KEY), .nt .IfExistsOpt]]
-- AlterColumn ::= ALTER COLUMN IfExists? NAME ColumnChange
  | .AlterColumn => [[.t (.kw .ALTER), .t (.kw .COLUMN), .nt .IfExistsOpt, .t .name, .nt .ColumnChange]]
-- ColumnChange ::= SET Options | SET DATA TYPE Type ColumnCollate? | SET DEFAULT Expr | DROP DEFAULT | 
-- DROP NOT NULL
  | .ColumnChange => [[.t (.kw .SET), .nt .Options],
      [.t (.kw .SET), .t (.kw .DATA), .t (.kw .TYPE), .nt .Type, .nt .ColumnCollateOpt],
      [.t (.kw .SET), .t (.kw .DEFAULT), .nt .Expr],
      [.t (.kw .DROP), .t (.kw .DEFAULT)],
      [.t (.kw .DROP), .t (.kw .NOT), .t (.kw .NULL)]]
-- AlterView ::= ALTER MATERIALIZED? VIEW IfExists? TableName ViewChange
  | .AlterView => [[.t (.kw .ALTER), .nt .MaterializedOpt, .t (.kw .VIEW), .nt .IfExistsOpt, .nt .TableName, .nt .ViewChange]]
-- ViewChange ::= SET Options | AlterColumn
  | .ViewChange => [[.t (.kw .SET), .nt .Options],
      [.nt .AlterColumn]]
-- AlterIndex ::= ALTER VECTOR INDEX IfExists? TableName ON TableName REBUILD
  | .AlterIndex => [[.t (.kw .ALTER), .t (.kw .VECTOR), .t (.word ['I', 'N', 'D', 'E', 'X']), .nt .IfExistsOpt, .nt .TableName, .t (.kw .ON), .nt .TableName, .t (.word ['R', 'E', 'B', 'U', 'I', 'L', 'D'])]]
-- AlterOther ::= ALTER ORGANIZATION SET Options | ALTER PROJECT TableName? SET Options | ALTER 
-- BI_CAPACITY TableName SET Options | ALTER CAPACITY TableName SET Options | ALTER RESERVATION 
-- TableName SET Options | ALTER MODEL IfExists? TableName SET Options
  | .AlterOther => [[.t (.kw .ALTER), .t (.kw .ORGANIZATION), .t (.kw .SET), .nt .Options],
      [.t (.kw .ALTER), .t (.kw .PROJECT), .nt .TableNameOpt, .t (.kw .SET), .nt .Options],
      [.t (.kw .ALTER), .t (.kw .BI_CAPACITY), .nt .TableName, .t (.kw .SET), .nt .Options],
      [.t (.kw .ALTER), .t (.kw .CAPACITY), .nt .TableName, .t (.kw .SET), .nt .Options],
      [.t (.kw .ALTER), .t (.kw .RESERVATION), .nt .TableName, .t (.kw .SET), .nt .Options],
      [.t (.kw .ALTER), .t (.kw .MODEL), .nt .IfExistsOpt, .nt .TableName, .t (.kw .SET), .nt .Options]]
-- DropPolicy ::= DROP ROW ACCESS POLICY IfExists? TableName ON TableName | DROP ALL ROW ACCESS 
-- POLICIES ON TableName
  | .DropPolicy => [[.t (.kw .DROP), .t (.kw .ROW), .t (.word ['A', 'C', 'C', 'E', 'S', 'S']), .t (.word ['P', 'O', 'L', 'I', 'C', 'Y']), .nt .IfExistsOpt, .nt .TableName, .t (.kw .ON), .nt .TableName],
      [.t (.kw .DROP), .t (.kw .ALL), .t (.kw .ROW), .t (.word ['A', 'C', 'C', 'E', 'S', 'S']), .t (.word ['P', 'O', 'L', 'I', 'C', 'I', 'E', 'S']), .t (.kw .ON), .nt .TableName]]
-- Drop ::= DROP DropKind IfExists? TableName DropMode? | DROP SEARCH INDEX IfExists? TableName ON 
-- TableName
  | .Drop => [[.t (.kw .DROP), .nt .DropKind, .nt .IfExistsOpt, .nt .TableName, .nt .DropModeOpt],
      [.t (.kw .DROP), .t (.kw .SEARCH), .t (.word ['I', 'N', 'D', 'E', 'X']), .nt .IfExistsOpt, .nt .TableName, .t (.kw .ON), .nt .TableName]]
-- DropKind ::= EXTERNAL SCHEMA | SCHEMA | EXTERNAL TABLE | TABLE | MATERIALIZED VIEW | VIEW | TABLE 
-- FUNCTION | FUNCTION | PROCEDURE | MODEL | CAPACITY | RESERVATION | ASSIGNMENT
  | .DropKind => [[.t (.kw .EXTERNAL), .t (.kw .SCHEMA)],
      [.t (.kw .SCHEMA)],
      [.t (.kw .EXTERNAL), .t (.kw .TABLE)],
      [.t (.kw .TABLE)],
      [.t (.kw .MATERIALIZED), .t (.kw .VIEW)],
      [.t (.kw .VIEW)],
      [.t (.kw .TABLE), .t (.kw .FUNCTION)],
      [.t (.kw .FUNCTION)],
      [.t (.kw .PROCEDURE)],
      [.t (.kw .MODEL)],
      [.t (.kw .CAPACITY)],
      [.t (.kw .RESERVATION)],
      [.t (.kw .ASSIGNMENT)]]
-- DropMode ::= CASCADE | RESTRICT
  | .DropMode => [[.t (.kw .CASCADE)],
      [.t (.kw .RESTRICT)]]
-- Undrop ::= UNDROP SCHEMA IfNotExists? TableName
  | .Undrop => [[.t (.kw .UNDROP), .t (.kw .SCHEMA), .nt .IfNotExistsOpt, .nt .TableName]]
-- Grant ::= GRANT ExprList ON GrantKind TableName TO ExprList
  | .Grant => [[.t (.kw .GRANT), .nt .ExprList, .t (.kw .ON), .nt .GrantKind, .nt .TableName, .t (.kw .TO), .nt .ExprList]]
-- Revoke ::= REVOKE ExprList ON GrantKind TableName FROM ExprList
  | .Revoke => [[.t (.kw .REVOKE), .nt .ExprList, .t (.kw .ON), .nt .GrantKind, .nt .TableName, .t (.kw .FROM), .nt .ExprList]]
-- GrantKind ::= SCHEMA | TABLE | VIEW
  | .GrantKind => [[.t (.kw .SCHEMA)],
      [.t (.kw .TABLE)],
      [.t (.kw .VIEW)]]
-- Declare ::= DECLARE Variables Type DefaultValue? | DECLARE Variables DefaultValue
  | .Declare => [[.t (.kw .DECLARE), .nt .Variables, .nt .Type, .nt .DefaultValueOpt],
      [.t (.kw .DECLARE), .nt .Variables, .nt .DefaultValue]]
-- Variables ::= NAME ',' Variables | NAME
  | .Variables => [[.t .name, .t (.kw .sym_comma), .nt .Variables],
      [.t .name]]
-- DefaultValue ::= DEFAULT Expr
  | .DefaultValue => [[.t (.kw .DEFAULT), .nt .Expr]]
-- Set ::= SET Expr
  | .Set => [[.t (.kw .SET), .nt .Expr]]
-- Execute ::= EXECUTE IMMEDIATE Expr IntoVars? UsingArgs?
  | .Execute => [[.t (.kw .EXECUTE), .t (.word ['I', 'M', 'M', 'E', 'D', 'I', 'A', 'T', 'E']), .nt .Expr, .nt .IntoVarsOpt, .nt .UsingArgsOpt]]
-- IntoVars ::= INTO Variables
  | .IntoVars => [[.t (.kw .INTO), .nt .Variables]]
-- UsingArgs ::= USING AliasedList
  | .UsingArgs => [[.t (.kw .USING), .nt .AliasedList]]
-- Begin ::= BeginBlock
  | .Begin => [[.nt .BeginBlock]]
-- BeginBlock ::= BEGIN Block Handler? END
  | .BeginBlock => [[.t (.kw .BEGIN), .nt .Block, .nt .HandlerOpt, .t (.kw .END)]]
-- Handler ::= EXCEPTION WHEN ERROR THEN Block
  | .Handler => [[.t (.kw .EXCEPTION), .t (.kw .WHEN), .t (.word ['E', 'R', 'R', 'O', 'R']), .t (.kw .THEN), .nt .Block]]
-- If ::= IF Expr THEN Block ElseIfs Else? END IF
  | .If => [[.t (.kw .IF), .nt .Expr, .t (.kw .THEN), .nt .Block, .nt .ElseIfs, .nt .ElseOpt, .t (.kw .END), .t (.kw .IF)]]
-- ElseIfs ::= ε | ELSEIF Expr THEN Block ElseIfs
  | .ElseIfs => [[],
      [.t (.kw .ELSEIF), .nt .Expr, .t (.kw .THEN), .nt .Block, .nt .ElseIfs]]
-- Else ::= ELSE Block
  | .Else => [[.t (.kw .ELSE), .nt .Block]]
-- Case ::= CASE Expr? CaseSteps Else? END CASE
  | .Case => [[.t (.kw .CASE), .nt .ExprOpt, .nt .CaseSteps, .nt .ElseOpt, .t (.kw .END), .t (.kw .CASE)]]
-- CaseSteps ::= CaseStep | CaseStep CaseSteps
  | .CaseSteps => [[.nt .CaseStep],
      [.nt .CaseStep, .nt .CaseSteps]]
-- CaseStep ::= WHEN Expr THEN Block
  | .CaseStep => [[.t (.kw .WHEN), .nt .Expr, .t (.kw .THEN), .nt .Block]]
-- Loop ::= LOOP Block END LOOP
  | .Loop => [[.t (.kw .LOOP), .nt .Block, .t (.kw .END), .t (.kw .LOOP)]]
-- Repeat ::= REPEAT Block UNTIL Expr END REPEAT
  | .Repeat => [[.t (.kw .REPEAT), .nt .Block, .t (.kw .UNTIL), .nt .Expr, .t (.kw .END), .t (.kw .REPEAT)]]
-- While ::= WHILE Expr DO Block END WHILE
  | .While => [[.t (.kw .WHILE), .nt .Expr, .t (.word ['D', 'O']), .nt .Block, .t (.kw .END), .t (.kw .WHILE)]]
-- For ::= FOR ID IN ParQ0 DO Block END FOR
  | .For => [[.t (.kw .FOR), .t .ident, .t (.kw .IN), .nt .ParQ0, .t (.word ['D', 'O']), .nt .Block, .t (.kw .END), .t (.kw .FOR)]]
-- ParQ0 ::= '(' InQuery ')'
  | .ParQ0 => [[.t (.kw .sym_lparen), .nt .InQuery, .t (.kw .sym_rparen)]]
-- Transaction ::= TxWord TRANSACTION | TxWord
  | .Transaction => [[.nt .TxWord, .t (.kw .TRANSACTION)],
      [.nt .TxWord]]
-- TxWord ::= BEGIN | COMMIT | ROLLBACK
  | .TxWord => [[.t (.kw .BEGIN)],
      [.t (.kw .COMMIT)],
      [.t (.kw .ROLLBACK)]]
-- Raise ::= RAISE RaiseUsing?
  | .Raise => [[.t (.kw .RAISE), .nt .RaiseUsingOpt]]
-- RaiseUsing ::= USING Expr
  | .RaiseUsing => [[.t (.kw .USING), .nt .Expr]]
-- Call ::= CALL Expr
  | .Call => [[.t (.kw .CALL), .nt .Expr]]
-- Assert ::= ASSERT Expr AssertAs?
  | .Assert => [[.t (.kw .ASSERT), .nt .Expr, .nt .AssertAsOpt]]
-- AssertAs ::= AS Expr
  | .AssertAs => [[.t (.kw .AS), .nt .Expr]]
-- ExportData ::= EXPORT DATA Connection? Options AS Query
  | .ExportData => [[.t (.kw .EXPORT), .t (.kw .DATA), .nt .ConnectionOpt, .nt .Options, .t (.kw .AS), .nt .Query]]
-- PipeExport ::= EXPORT DATA Connection? Options AS SelPipe
  | .PipeExport => [[.t (.kw .EXPORT), .t (.kw .DATA), .nt .ConnectionOpt, .nt .Options, .t (.kw .AS), .nt .SelPipe]]
-- ExportModel ::= EXPORT MODEL TableName Options?
  | .ExportModel => [[.t (.kw .EXPORT), .t (.kw .MODEL), .nt .TableName, .nt .OptionsOpt]]
-- Load ::= LOAD DATA LoadMode TableName LoadPartitions? PlainColumns? PartitionBy? ClusterBy? Options? 
-- FROM FILES '(' ExprList ')' PartitionColumns? NamedConnection?
  | .Load => [[.t (.kw .LOAD), .t (.kw .DATA), .nt .LoadMode, .nt .TableName, .nt .LoadPartitionsOpt, .nt .PlainColumnsOpt, .nt .PartitionByOpt, .nt .ClusterByOpt, .nt .OptionsOpt, .t (.kw .FROM), .t (.word ['F', 'I', 'L', 'E', 'S']), .t (.kw .sym_lparen), .nt .ExprList, .t (.kw .sym_rparen), .nt .PartitionColumnsOpt, .nt .NamedConnectionOpt]]
-- LoadMode ::= INTO | OVERWRITE
  | .LoadMode => [[.t (.kw .INTO)],
      [.t (.kw .OVERWRITE)]]
-- LoadPartitions ::= OVERWRITE PARTITIONS '(' Expr ')' | PARTITIONS '(' Expr ')'
  | .LoadPartitions => [[.t (.kw .OVERWRITE), .t (.kw .PARTITIONS), .t (.kw .sym_lparen), .nt .Expr, .t (.kw .sym_rparen)],
      [.t (.kw .PARTITIONS), .t (.kw .sym_lparen), .nt .Expr, .t (.kw .sym_rparen)]]
-- Query ::= QueryN | ParQ
  | .Query => [[.nt .QueryN],
      [.nt .ParQ]]
-- QueryBody ::= SelQ | ParQ
  | .QueryBody => [[.nt .SelQ],
      [.nt .ParQ]]
-- With ::= WITH RECURSIVE? Ctes
  | .With => [[.t (.kw .WITH), .nt .RecursiveOpt, .nt .Ctes]]
-- Ctes ::= Cte ',' Ctes | Cte
  | .Ctes => [[.nt .Cte, .t (.kw .sym_comma), .nt .Ctes],
      [.nt .Cte]]
-- Cte ::= NAME AS '(' InQuery ')'
  | .Cte => [[.t .name, .t (.kw .AS), .t (.kw .sym_lparen), .nt .InQuery, .t (.kw .sym_rparen)]]
-- SelQ ::= SelectFrom SelExcept | SelectOnly SelMethod | SelectCore SelRest
  | .SelQ => [[.nt .SelectFrom, .nt .SelExcept],
      [.nt .SelectOnly, .nt .SelMethod],
      [.nt .SelectCore, .nt .SelRest]]
-- SelRest ::= OrderBy? Limit? | SetOpU SelQ | SetOpU '(' InQuery ')' ParRest1
  | .SelRest => [[.nt .OrderByOpt, .nt .LimitOpt],
      [.nt .SetOpU, .nt .SelQ],
      [.nt .SetOpU, .t (.kw .sym_lparen), .nt .InQuery, .t (.kw .sym_rparen), .nt .ParRest1]]
-- SelExcept ::= SetOpE SelQ | SetOpE '(' InQuery ')' ParRest1
  | .SelExcept => [[.nt .SetOpE, .nt .SelQ],
      [.nt .SetOpE, .t (.kw .sym_lparen), .nt .InQuery, .t (.kw .sym_rparen), .nt .ParRest1]]
-- SelMethod ::= SetOpM SelQ | SetOpM '(' InQuery ')' ParRest1
  | .SelMethod => [[.nt .SetOpM, .nt .SelQ],
      [.nt .SetOpM, .t (.kw .sym_lparen), .nt .InQuery, .t (.kw .sym_rparen), .nt .ParRest1]]
-- ParRest1 ::= ε | SetOp SelQ | SetOp '(' InQuery ')' ParRest1
  | .ParRest1 => [[],
      [.nt .SetOp, .nt .SelQ],
      [.nt .SetOp, .t (.kw .sym_lparen), .nt .InQuery, .t (.kw .sym_rparen), .nt .ParRest1]]
-- ParQ ::= '(' InQuery ')' ParRest
  | .ParQ => [[.t (.kw .sym_lparen), .nt .InQuery, .t (.kw .sym_rparen), .nt .ParRest]]
-- ParRest ::= OrderBy? Limit? | SetOp SelQ | SetOp '(' InQuery ')' ParRest
  | .ParRest => [[.nt .OrderByOpt, .nt .LimitOpt],
      [.nt .SetOp, .nt .SelQ],
      [.nt .SetOp, .t (.kw .sym_lparen), .nt .InQuery, .t (.kw .sym_rparen), .nt .ParRest]]
-- SetOp ::= SetOpU | SetOpE | SetOpM
  | .SetOp => [[.nt .SetOpU],
      [.nt .SetOpE],
      [.nt .SetOpM]]
-- SetOpU ::= SetKind SetName?
  | .SetOpU => [[.nt .SetKind, .nt .SetNameOpt]]
-- SetOpE ::= EXCEPT DISTINCT SetName?
  | .SetOpE => [[.t (.kw .EXCEPT), .t (.kw .DISTINCT), .nt .SetNameOpt]]
-- SetOpM ::= SetMethod SetKind SetName?
  | .SetOpM => [[.nt .SetMethod, .nt .SetKind, .nt .SetNameOpt]]
-- SetMethod ::= INNER | FULL | FULL OUTER | LEFT | LEFT OUTER | OUTER
  | .SetMethod => [[.t (.kw .INNER)],
      [.t (.kw .FULL)],
      [.t (.kw .FULL), .t (.kw .OUTER)],
      [.t (.kw .LEFT)],
      [.t (.kw .LEFT), .t (.kw .OUTER)],
      [.t (.kw .OUTER)]]
-- SetKind ::= UNION ALL | UNION DISTINCT | INTERSECT DISTINCT
  | .SetKind => [[.t (.kw .UNION), .t (.kw .ALL)],
      [.t (.kw .UNION), .t (.kw .DISTINCT)],
      [.t (.kw .INTERSECT), .t (.kw .DISTINCT)]]
-- SetName ::= BY NAME | BY NAME ON '(' ExprList ')' | STRICT Corresponding | Corresponding
  | .SetName => [[.t (.kw .BY), .t .name],
      [.t (.kw .BY), .t .name, .t (.kw .ON), .t (.kw .sym_lparen), .nt .ExprList, .t (.kw .sym_rparen)],
      [.t (.kw .STRICT), .nt .Corresponding],
      [.nt .Corresponding]]
-- Corresponding ::= CORRESPONDING BY '(' ExprList ')' | CORRESPONDING
  | .Corresponding => [[.t (.kw .CORRESPONDING), .t (.kw .BY), .t (.kw .sym_lparen), .nt .ExprList, .t (.kw .sym_rparen)],
      [.t (.kw .CORRESPONDING)]]
-- OrderBy ::= ORDER BY OrderItems
  | .OrderBy => [[.t (.kw .ORDER), .t (.kw .BY), .nt .OrderItems]]
-- OrderItems ::= Expr Ord? ',' OrderItems | Expr Ord?
  | .OrderItems => [[.nt .Expr, .nt .OrdOpt, .t (.kw .sym_comma), .nt .OrderItems],
      [.nt .Expr, .nt .OrdOpt]]
-- Ord ::= ASC | DESC | ASC NullOrder | DESC NullOrder | NullOrder
  | .Ord => [[.t (.kw .ASC)],
      [.t (.kw .DESC)],
      [.t (.kw .ASC), .nt .NullOrder],
      [.t (.kw .DESC), .nt .NullOrder],
      [.nt .NullOrder]]
-- NullOrder ::= NULLS FIRST | NULLS LAST
  | .NullOrder => [[.t (.kw .NULLS), .t (.kw .FIRST)],
      [.t (.kw .NULLS), .t (.kw .LAST)]]
-- Limit ::= LIMIT Expr | LIMIT Expr OFFSET Expr
  | .Limit => [[.t (.kw .LIMIT), .nt .Expr],
      [.t (.kw .LIMIT), .nt .Expr, .t (.kw .OFFSET), .nt .Expr]]
-- SelectCore ::= SelectFrom | SelectOnly
  | .SelectCore => [[.nt .SelectFrom],
      [.nt .SelectOnly]]
-- SelectOnly ::= SELECT Privacy? SelMod? SelAs? SelectList
  | .SelectOnly => [[.t (.kw .SELECT), .nt .PrivacyOpt, .nt .SelModOpt, .nt .SelAsOpt, .nt .SelectList]]
-- Privacy ::= WITH DIFFERENTIAL_PRIVACY Options?
  | .Privacy => [[.t (.kw .WITH), .t (.word ['D', 'I', 'F', 'F', 'E', 'R', 'E', 'N', 'T', 'I', 'A', 'L', '_', 'P', 'R', 'I', 'V', 'A', 'C', 'Y']), .nt .OptionsOpt]]
-- SelectFrom ::= SELECT Privacy? SelMod? SelAs? SelectList ',' FromClause Clauses | SELECT Privacy? 
-- SelMod? SelAs? SelectList FromClause Clauses
  | .SelectFrom => [[.t (.kw .SELECT), .nt .PrivacyOpt, .nt .SelModOpt, .nt .SelAsOpt, .nt .SelectList, .t (.kw .sym_comma), .nt .FromClause, .nt .Clauses],
      [.t (.kw .SELECT), .nt .PrivacyOpt, .nt .SelModOpt, .nt .SelAsOpt, .nt .SelectList, .nt .FromClause, .nt .Clauses]]
-- Clauses ::= Where? GroupBy? Having? Qualify? Window?
  | .Clauses => [[.nt .WhereOpt, .nt .GroupByOpt, .nt .HavingOpt, .nt .QualifyOpt, .nt .WindowOpt]]
-- SelMod ::= ALL | DISTINCT
  | .SelMod => [[.t (.kw .ALL)],
      [.t (.kw .DISTINCT)]]
-- SelAs ::= AS STRUCT | AS VALUE
  | .SelAs => [[.t (.kw .AS), .t (.kw .STRUCT)],
      [.t (.kw .AS), .t (.word ['V', 'A', 'L', 'U', 'E'])]]
-- SelectList ::= SelectItem ',' SelectList | SelectItem
  | .SelectList => [[.nt .SelectItem, .t (.kw .sym_comma), .nt .SelectList],
      [.nt .SelectItem]]
-- SelectItem ::= WITH '(' WithArgs ')' Alias? | Expr Alias? | '*' StarMod? | DotBase '.' '*' StarMod?
  | .SelectItem => [[.t (.kw .WITH), .t (.kw .sym_lparen), .nt .WithArgs, .t (.kw .sym_rparen), .nt .AliasOpt],
      [.nt .Expr, .nt .AliasOpt],
      [.t (.kw .sym_star), .nt .StarModOpt],
      [.nt .DotBase, .t (.kw .sym_dot), .t (.kw .sym_star), .nt .StarModOpt]]
-- WithArgs ::= ID AS Expr ',' WithArgs | ID AS Expr ',' Expr
  | .WithArgs => [[.t .ident, .t (.kw .AS), .nt .Expr, .t (.kw .sym_comma), .nt .WithArgs],
      [.t .ident, .t (.kw .AS), .nt .Expr, .t (.kw .sym_comma), .nt .Expr]]
-- DotBase ::= NAME '(' CallArgs ')' Post | NAME Post | '(' InQueryE ')' Post | '(' ExprList ')' Post
  | .DotBase => [[.t .name, .t (.kw .sym_lparen), .nt .CallArgs, .t (.kw .sym_rparen), .nt .Post],
      [.t .name, .nt .Post],
      [.t (.kw .sym_lparen), .nt .InQueryE, .t (.kw .sym_rparen), .nt .Post],
      [.t (.kw .sym_lparen), .nt .ExprList, .t (.kw .sym_rparen), .nt .Post]]
-- StarMod ::= EXCEPT '(' ExprList ')' | REPLACE '(' AliasedList ')'
  | .StarMod => [[.t (.kw .EXCEPT), .t (.kw .sym_lparen), .nt .ExprList, .t (.kw .sym_rparen)],
      [.t (.kw .REPLACE), .t (.kw .sym_lparen), .nt .AliasedList, .t (.kw .sym_rparen)]]
-- Alias ::= AS NAME | ID
  | .Alias => [[.t (.kw .AS), .t .name],
      [.t .ident]]
-- AliasedList ::= Expr Alias? ',' AliasedList | Expr Alias?
  | .AliasedList => [[.nt .Expr, .nt .AliasOpt, .t (.kw .sym_comma), .nt .AliasedList],
      [.nt .Expr, .nt .AliasOpt]]
-- FromClause ::= FROM TableExpr
  | .FromClause => [[.t (.kw .FROM), .nt .TableExpr]]
-- Where ::= WHERE Expr
  | .Where => [[.t (.kw .WHERE), .nt .Expr]]
-- GroupBy ::= GROUP BY GroupItems
  | .GroupBy => [[.t (.kw .GROUP), .t (.kw .BY), .nt .GroupItems]]
-- GroupItems ::= ExprList | ALL | ROLLUP '(' ExprList ')' | CUBE '(' ExprList ')' | GROUPING SETS '(' 
-- ExprList ')'
  | .GroupItems => [[.nt .ExprList],
      [.t (.kw .ALL)],
      [.t (.kw .ROLLUP), .t (.kw .sym_lparen), .nt .ExprList, .t (.kw .sym_rparen)],
      [.t (.kw .CUBE), .t (.kw .sym_lparen), .nt .ExprList, .t (.kw .sym_rparen)],
      [.t (.kw .GROUPING), .t (.word ['S', 'E', 'T', 'S']), .t (.kw .sym_lparen), .nt .ExprList, .t (.kw .sym_rparen)]]
-- Having ::= HAVING Expr
  | .Having => [[.t (.kw .HAVING), .nt .Expr]]
-- Qualify ::= QUALIFY Expr
  | .Qualify => [[.t (.kw .QUALIFY), .nt .Expr]]
-- Window ::= WINDOW WindowDefs
  | .Window => [[.t (.kw .WINDOW), .nt .WindowDefs]]
-- WindowDefs ::= WindowDef ',' WindowDefs | WindowDef
  | .WindowDefs => [[.nt .WindowDef, .t (.kw .sym_comma), .nt .WindowDefs],
      [.nt .WindowDef]]
-- WindowDef ::= ID AS WindowSpec
  | .WindowDef => [[.t .ident, .t (.kw .AS), .nt .WindowSpec]]
-- WindowSpec ::= ID | '(' ID? PartitionBy? OrderBy? Frame? ')'
  | .WindowSpec => [[.t .ident],
      [.t (.kw .sym_lparen), .nt .IdOpt, .nt .PartitionByOpt, .nt .OrderByOpt, .nt .FrameOpt, .t (.kw .sym_rparen)]]
-- PartitionBy ::= PARTITION BY ExprList
  | .PartitionBy => [[.t (.kw .PARTITION), .t (.kw .BY), .nt .ExprList]]
-- Frame ::= FrameUnit BETWEEN FrameBound AND FrameBound | FrameUnit FrameBound
  | .Frame => [[.nt .FrameUnit, .t (.kw .BETWEEN), .nt .FrameBound, .t (.kw .AND), .nt .FrameBound],
      [.nt .FrameUnit, .nt .FrameBound]]
-- FrameUnit ::= ROWS | RANGE
  | .FrameUnit => [[.t (.kw .ROWS)],
      [.t (.kw .RANGE)]]
-- FrameBound ::= UNBOUNDED PRECEDING | UNBOUNDED FOLLOWING | CURRENT ROW | NUM PRECEDING | NUM 
-- FOLLOWING
  | .FrameBound => [[.t (.kw .UNBOUNDED), .t (.kw .PRECEDING)],
      [.t (.kw .UNBOUNDED), .t (.kw .FOLLOWING)],
      [.t (.kw .CURRENT), .t (.kw .ROW)],
      [.t .number, .t (.kw .PRECEDING)],
      [.t .number, .t (.kw .FOLLOWING)]]
-- InQuery ::= InQueryN | ParPipe | ParQ
  | .InQuery => [[.nt .InQueryN],
      [.nt .ParPipe],
      [.nt .ParQ]]
-- InQueryN ::= FromHead Pipes | FromHead | InQueryE
  | .InQueryN => [[.nt .FromHead, .nt .Pipes],
      [.nt .FromHead],
      [.nt .InQueryE]]
-- InQueryE ::= SelPipeN | QueryN
  | .InQueryE => [[.nt .SelPipeN],
      [.nt .QueryN]]
-- PipeQuery ::= SelPipe | FromHead Pipes | FromHead
  | .PipeQuery => [[.nt .SelPipe],
      [.nt .FromHead, .nt .Pipes],
      [.nt .FromHead]]
-- SelPipe ::= SelPipeN | ParPipe
  | .SelPipe => [[.nt .SelPipeN],
      [.nt .ParPipe]]
-- SelPipeN ::= SelHeadN Pipes | WithPipe
  | .SelPipeN => [[.nt .SelHeadN, .nt .Pipes],
      [.nt .WithPipe]]
-- ParPipe ::= '(' InQuery ')' Pipes
  | .ParPipe => [[.t (.kw .sym_lparen), .nt .InQuery, .t (.kw .sym_rparen), .nt .Pipes]]
-- WithPipe ::= With SelHeadN Pipes | With ParPipe | With FromHead Pipes | With FromHead
  | .WithPipe => [[.nt .With, .nt .SelHeadN, .nt .Pipes],
      [.nt .With, .nt .ParPipe],
      [.nt .With, .nt .FromHead, .nt .Pipes],
      [.nt .With, .nt .FromHead]]
-- SelHeadN ::= SELECT Privacy? SelMod? SelAs? SelectList FromHead Clauses OrderBy? Limit? | SelectOnly 
-- OrderBy? Limit?
  | .SelHeadN => [[.t (.kw .SELECT), .nt .PrivacyOpt, .nt .SelModOpt, .nt .SelAsOpt, .nt .SelectList, .nt .FromHead, .nt .Clauses, .nt .OrderByOpt, .nt .LimitOpt],
      [.nt .SelectOnly, .nt .OrderByOpt, .nt .LimitOpt]]
-- FromHead ::= FROM TableExprP
  | .FromHead => [[.t (.kw .FROM), .nt .TableExprP]]
-- TableExprP ::= TablePrimP JoinsP
  | .TableExprP => [[.nt .TablePrimP, .nt .JoinsP]]
-- JoinsP ::= ε | ',' TablePrimP JoinsP | JoinKind TablePrimP JoinCond? JoinsP
  | .JoinsP => [[],
      [.t (.kw .sym_comma), .nt .TablePrimP, .nt .JoinsP],
      [.nt .JoinKind, .nt .TablePrimP, .nt .JoinCondOpt, .nt .JoinsP]]
-- TablePrimP ::= TableName Alias? SystemTime? TableOp? Sample? | '(' InQueryN ')' Alias TableOp? 
-- Sample? | '(' TableExprN ')' | UNNEST '(' Expr ')' Alias? WithOffset? | TvfName '(' TableArgs? ')' 
-- Alias?
  | .TablePrimP => [[.nt .TableName, .nt .AliasOpt, .nt .SystemTimeOpt, .nt .TableOpOpt, .nt .SampleOpt],
      [.t (.kw .sym_lparen), .nt .InQueryN, .t (.kw .sym_rparen), .nt .Alias, .nt .TableOpOpt, .nt .SampleOpt],
      [.t (.kw .sym_lparen), .nt .TableExprN, .t (.kw .sym_rparen)],
      [.t (.kw .UNNEST), .t (.kw .sym_lparen), .nt .Expr, .t (.kw .sym_rparen), .nt .AliasOpt, .nt .WithOffsetOpt],
      [.nt .TvfName, .t (.kw .sym_lparen), .nt .TableArgsOpt, .t (.kw .sym_rparen), .nt .AliasOpt]]
-- Pipes ::= '|>' With Pipes | '|>' PipeOp Pipes | '|>' PipeOp
  | .Pipes => [[.t (.kw .sym_pipe), .nt .With, .nt .Pipes],
      [.t (.kw .sym_pipe), .nt .PipeOp, .nt .Pipes],
      [.t (.kw .sym_pipe), .nt .PipeOp]]
-- PipeOp ::= PipeWord AliasedList | ORDER BY OrderItems | SELECT SelMod? SelAs? SelectList Window? | 
-- AGGREGATE AliasedList PipeGroupBy? | SetOp PipeInputs | PipeJoin | LIMIT Expr | LIMIT Expr OFFSET 
-- Expr | Sample | Pivot | Unpivot | MatchRecognize | DISTINCT
  | .PipeOp => [[.nt .PipeWord, .nt .AliasedList],
      [.t (.kw .ORDER), .t (.kw .BY), .nt .OrderItems],
      [.t (.kw .SELECT), .nt .SelModOpt, .nt .SelAsOpt, .nt .SelectList, .nt .WindowOpt],
      [.t (.kw .AGGREGATE), .nt .AliasedList, .nt .PipeGroupByOpt],
      [.nt .SetOp, .nt .PipeInputs],
      [.nt .PipeJoin],
      [.t (.kw .LIMIT), .nt .Expr],
      [.t (.kw .LIMIT), .nt .Expr, .t (.kw .OFFSET), .nt .Expr],
      [.nt .Sample],
      [.nt .Pivot],
      [.nt .Unpivot],
      [.nt .MatchRecognize],
      [.t (.kw .DISTINCT)]]
-- PipeWord ::= EXTEND | SET | DROP | RENAME | AS | WHERE | CALL
  | .PipeWord => [[.t (.kw .EXTEND)],
      [.t (.kw .SET)],
      [.t (.kw .DROP)],
      [.t (.kw .RENAME)],
      [.t (.kw .AS)],
      [.t (.kw .WHERE)],
      [.t (.kw .CALL)]]
-- PipeGroupBy ::= GROUP BY PipeGroupItems
  | .PipeGroupBy => [[.t (.kw .GROUP), .t (.kw .BY), .nt .PipeGroupItems]]
-- PipeGroupItems ::= AliasedList | ALL | ROLLUP '(' ExprList ')' | CUBE '(' ExprList ')' | GROUPING 
-- SETS '(' ExprList ')'
  | .PipeGroupItems => [[.nt .AliasedList],
      [.t (.kw .ALL)],
      [.t (.kw .ROLLUP), .t (.kw .sym_lparen), .nt .ExprList, .t (.kw .sym_rparen)],
      [.t (.kw .CUBE), .t (.kw .sym_lparen), .nt .ExprList, .t (.kw .sym_rparen)],
      [.t (.kw .GROUPING), .t (.word ['S', 'E', 'T', 'S']), .t (.kw .sym_lparen), .nt .ExprList, .t (.kw .sym_rparen)]]
-- PipeInputs ::= '(' InQueryE ')' ',' PipeInputs | '(' InQueryE ')'
  | .PipeInputs => [[.t (.kw .sym_lparen), .nt .InQueryE, .t (.kw .sym_rparen), .t (.kw .sym_comma), .nt .PipeInputs],
      [.t (.kw .sym_lparen), .nt .InQueryE, .t (.kw .sym_rparen)]]
-- PipeJoin ::= JoinKind TablePrimP JoinCond?
  | .PipeJoin => [[.nt .JoinKind, .nt .TablePrimP, .nt .JoinCondOpt]]
-- TableExpr ::= TablePrim Joins
  | .TableExpr => [[.nt .TablePrim, .nt .Joins]]
-- Joins ::= ε | ',' TablePrim Joins | JoinKind TablePrim JoinCond? Joins
  | .Joins => [[],
      [.t (.kw .sym_comma), .nt .TablePrim, .nt .Joins],
      [.nt .JoinKind, .nt .TablePrim, .nt .JoinCondOpt, .nt .Joins]]
-- JoinKind ::= JOIN | INNER JOIN | CROSS JOIN | LEFT JOIN | LEFT OUTER JOIN | RIGHT JOIN | RIGHT OUTER 
-- JOIN | FULL JOIN | FULL OUTER JOIN
  | .JoinKind => [[.t (.kw .JOIN)],
      [.t (.kw .INNER), .t (.kw .JOIN)],
      [.t (.kw .CROSS), .t (.kw .JOIN)],
      [.t (.kw .LEFT), .t (.kw .JOIN)],
      [.t (.kw .LEFT), .t (.kw .OUTER), .t (.kw .JOIN)],
      [.t (.kw .RIGHT), .t (.kw .JOIN)],
      [.t (.kw .RIGHT), .t (.kw .OUTER), .t (.kw .JOIN)],
      [.t (.kw .FULL), .t (.kw .JOIN)],
      [.t (.kw .FULL), .t (.kw .OUTER), .t (.kw .JOIN)]]
-- JoinCond ::= ON Expr | USING '(' ExprList ')'
  | .JoinCond => [[.t (.kw .ON), .nt .Expr],
      [.t (.kw .USING), .t (.kw .sym_lparen), .nt .ExprList, .t (.kw .sym_rparen)]]
-- TablePrim ::= TableName Alias? SystemTime? TableOp? Sample? | '(' InQueryN ')' Alias? TableOp? 
-- Sample? | '(' TableExprN ')' | UNNEST '(' Expr ')' Alias? WithOffset? | TvfName '(' TableArgs? ')' 
-- Alias?
  | .TablePrim => [[.nt .TableName, .nt .AliasOpt, .nt .SystemTimeOpt, .nt .TableOpOpt, .nt .SampleOpt],
      [.t (.kw .sym_lparen), .nt .InQueryN, .t (.kw .sym_rparen), .nt .AliasOpt, .nt .TableOpOpt, .nt .SampleOpt],
      [.t (.kw .sym_lparen), .nt .TableExprN, .t (.kw .sym_rparen)],
      [.t (.kw .UNNEST), .t (.kw .sym_lparen), .nt .Expr, .t (.kw .sym_rparen), .nt .AliasOpt, .nt .WithOffsetOpt],
      [.nt .TvfName, .t (.kw .sym_lparen), .nt .TableArgsOpt, .t (.kw .sym_rparen), .nt .AliasOpt]]
-- QueryN ::= With QueryBody | SelQ
  | .QueryN => [[.nt .With, .nt .QueryBody],
      [.nt .SelQ]]
-- TableExprN ::= TableName Alias? SystemTime? TableOp? Sample? Joins
  | .TableExprN => [[.nt .TableName, .nt .AliasOpt, .nt .SystemTimeOpt, .nt .TableOpOpt, .nt .SampleOpt, .nt .Joins]]
-- TableOp ::= Pivot | Unpivot | MatchRecognize
  | .TableOp => [[.nt .Pivot],
      [.nt .Unpivot],
      [.nt .MatchRecognize]]
-- Pivot ::= PIVOT PivotConfig Alias?
  | .Pivot => [[.t (.kw .PIVOT), .nt .PivotConfig, .nt .AliasOpt]]
-- PivotConfig ::= '(' AliasedList FOR NAME PivotIn ')'
  | .PivotConfig => [[.t (.kw .sym_lparen), .nt .AliasedList, .t (.kw .FOR), .t .name, .nt .PivotIn, .t (.kw .sym_rparen)]]
-- PivotIn ::= IN '(' AliasedList ')'
  | .PivotIn => [[.t (.kw .IN), .t (.kw .sym_lparen), .nt .AliasedList, .t (.kw .sym_rparen)]]
-- Unpivot ::= UNPIVOT UnpivotNulls? UnpivotConfig Alias?
  | .Unpivot => [[.t (.kw .UNPIVOT), .nt .UnpivotNullsOpt, .nt .UnpivotConfig, .nt .AliasOpt]]
-- UnpivotNulls ::= INCLUDE NULLS | EXCLUDE NULLS
  | .UnpivotNulls => [[.t (.kw .INCLUDE), .t (.kw .NULLS)],
      [.t (.kw .EXCLUDE), .t (.kw .NULLS)]]
-- UnpivotConfig ::= '(' UnpivotValues FOR ID IN '(' UnpivotItems ')' ')'
  | .UnpivotConfig => [[.t (.kw .sym_lparen), .nt .UnpivotValues, .t (.kw .FOR), .t .ident, .t (.kw .IN), .t (.kw .sym_lparen), .nt .UnpivotItems, .t (.kw .sym_rparen), .t (.kw .sym_rparen)]]
-- UnpivotValues ::= ID | '(' ExprList ')'
  | .UnpivotValues => [[.t .ident],
      [.t (.kw .sym_lparen), .nt .ExprList, .t (.kw .sym_rparen)]]
-- UnpivotItems ::= UnpivotItem ',' UnpivotItems | UnpivotItem
  | .UnpivotItems => [[.nt .UnpivotItem, .t (.kw .sym_comma), .nt .UnpivotItems],
      [.nt .UnpivotItem]]
-- UnpivotItem ::= UnpivotValues RowAlias?
  | .UnpivotItem => [[.nt .UnpivotValues, .nt .RowAliasOpt]]
-- RowAlias ::= AS STR | AS NUM | STR | NUM
  | .RowAlias => [[.t (.kw .AS), .t .string],
      [.t (.kw .AS), .t .number],
      [.t .string],
      [.t .number]]
-- MatchRecognize ::= MATCH_RECOGNIZE MatchConfig Alias?
  | .MatchRecognize => [[.t (.kw .MATCH_RECOGNIZE), .nt .MatchConfig, .nt .AliasOpt]]
-- MatchConfig ::= '(' PartitionBy? OrderBy Measures? AfterMatch? PATTERN PatternGroup Define Options? 
-- ')'
  | .MatchConfig => [[.t (.kw .sym_lparen), .nt .PartitionByOpt, .nt .OrderBy, .nt .MeasuresOpt, .nt .AfterMatchOpt, .t (.kw .PATTERN), .nt .PatternGroup, .nt .Define, .nt .OptionsOpt, .t (.kw .sym_rparen)]]
-- Measures ::= MEASURES NamedExprs
  | .Measures => [[.t (.kw .MEASURES), .nt .NamedExprs]]
-- NamedExprs ::= Expr AS NAME ',' NamedExprs | Expr AS NAME
  | .NamedExprs => [[.nt .Expr, .t (.kw .AS), .t .name, .t (.kw .sym_comma), .nt .NamedExprs],
      [.nt .Expr, .t (.kw .AS), .t .name]]
-- AfterMatch ::= AFTER MATCH SKIP PAST LAST ROW | AFTER MATCH SKIP TO NEXT ROW
  | .AfterMatch => [[.t (.kw .AFTER), .t (.word ['M', 'A', 'T', 'C', 'H']), .t (.word ['S', 'K', 'I', 'P']), .t (.word ['P', 'A', 'S', 'T']), .t (.kw .LAST), .t (.kw .ROW)],
      [.t (.kw .AFTER), .t (.word ['M', 'A', 'T', 'C', 'H']), .t (.word ['S', 'K', 'I', 'P']), .t (.kw .TO), .t (.word ['N', 'E', 'X', 'T']), .t (.kw .ROW)]]
-- Define ::= DEFINE Definitions
  | .Define => [[.t (.kw .DEFINE), .nt .Definitions]]
-- Definitions ::= ID AS Expr ',' Definitions | ID AS Expr
  | .Definitions => [[.t .ident, .t (.kw .AS), .nt .Expr, .t (.kw .sym_comma), .nt .Definitions],
      [.t .ident, .t (.kw .AS), .nt .Expr]]
-- PatternGroup ::= '(' PatternSeq PatternOrs ')'
  | .PatternGroup => [[.t (.kw .sym_lparen), .nt .PatternSeq, .nt .PatternOrs, .t (.kw .sym_rparen)]]
-- PatternSeq ::= ε | PatternUnit PatternSeq
  | .PatternSeq => [[],
      [.nt .PatternUnit, .nt .PatternSeq]]
-- PatternOrs ::= ε | '|' PatternSeq PatternOrs
  | .PatternOrs => [[],
      [.t (.kw .sym_bar), .nt .PatternSeq, .nt .PatternOrs]]
-- PatternUnit ::= ID Suffixes | PatternGroup Suffixes
  | .PatternUnit => [[.t .ident, .nt .Suffixes],
      [.nt .PatternGroup, .nt .Suffixes]]
-- Suffixes ::= ε | Suffix Suffixes
  | .Suffixes => [[],
      [.nt .Suffix, .nt .Suffixes]]
-- Suffix ::= '?' | '+' | '*'
  | .Suffix => [[.t (.kw .sym_quest)],
      [.t (.kw .sym_plus)],
      [.t (.kw .sym_star)]]
-- TvfName ::= ID TvfRest
  | .TvfName => [[.t .ident, .nt .TvfRest]]
-- TvfRest ::= ε | '.' ID TvfRest
  | .TvfRest => [[],
      [.t (.kw .sym_dot), .t .ident, .nt .TvfRest]]
-- TableName ::= NAME NameRest
  | .TableName => [[.t .name, .nt .NameRest]]
-- NameRest ::= ε | '.' NAME NameRest
  | .NameRest => [[],
      [.t (.kw .sym_dot), .t .name, .nt .NameRest]]
-- SystemTime ::= FOR SYSTEM_TIME AS OF Expr
  | .SystemTime => [[.t (.kw .FOR), .t (.word ['S', 'Y', 'S', 'T', 'E', 'M', '_', 'T', 'I', 'M', 'E']), .t (.kw .AS), .t (.kw .OF), .nt .Expr]]
-- Sample ::= TABLESAMPLE SYSTEM '(' Expr PERCENT ')'
  | .Sample => [[.t (.kw .TABLESAMPLE), .t (.word ['S', 'Y', 'S', 'T', 'E', 'M']), .t (.kw .sym_lparen), .nt .Expr, .t (.word ['P', 'E', 'R', 'C', 'E', 'N', 'T']), .t (.kw .sym_rparen)]]
-- WithOffset ::= WITH OFFSET | WITH OFFSET Alias
  | .WithOffset => [[.t (.kw .WITH), .t (.kw .OFFSET)],
      [.t (.kw .WITH), .t (.kw .OFFSET), .nt .Alias]]
-- TableArgs ::= TableArg ',' TableArgs | TableArg
  | .TableArgs => [[.nt .TableArg, .t (.kw .sym_comma), .nt .TableArgs],
      [.nt .TableArg]]
-- TableArg ::= TABLE TableName | MODEL TableName | Expr
  | .TableArg => [[.t (.kw .TABLE), .nt .TableName],
      [.t (.kw .MODEL), .nt .TableName],
      [.nt .Expr]]
-- ExprList ::= Expr ',' ExprList | Expr
  | .ExprList => [[.nt .Expr, .t (.kw .sym_comma), .nt .ExprList],
      [.nt .Expr]]
-- Expr ::= NotUnary Tail
  | .Expr => [[.nt .NotUnary, .nt .Tail]]
-- NotUnary ::= NOT NotUnary | Unary
  | .NotUnary => [[.t (.kw .NOT), .nt .NotUnary],
      [.nt .Unary]]
-- Unary ::= Primary | '-' Unary | '+' Unary | '~' Unary
  | .Unary => [[.nt .Primary],
      [.t (.kw .sym_minus), .nt .Unary],
      [.t (.kw .sym_plus), .nt .Unary],
      [.t (.kw .sym_tilde), .nt .Unary]]
-- Tail ::= ε | OpChunk Tail
  | .Tail => [[],
      [.nt .OpChunk, .nt .Tail]]
-- OpChunk ::= ArithOp Unary | CompOp Unary | IS NOT? IsWhat | IS NOT? DISTINCT FROM Unary | InOp '(' 
-- ExprList ')' | InOp '(' InQueryE ')' | InOp UNNEST '(' Expr ')' | BetweenOp Unary TailB AND Unary | 
-- LikeOp Unary | LogicOp NotUnary
  | .OpChunk => [[.nt .ArithOp, .nt .Unary],
      [.nt .CompOp, .nt .Unary],
      [.t (.kw .IS), .nt .NotOpt, .nt .IsWhat],
      [.t (.kw .IS), .nt .NotOpt, .t (.kw .DISTINCT), .t (.kw .FROM), .nt .Unary],
      [.nt .InOp, .t (.kw .sym_lparen), .nt .ExprList, .t (.kw .sym_rparen)],
      [.nt .InOp, .t (.kw .sym_lparen), .nt .InQueryE, .t (.kw .sym_rparen)],
      [.nt .InOp, .t (.kw .UNNEST), .t (.kw .sym_lparen), .nt .Expr, .t (.kw .sym_rparen)],
      [.nt .BetweenOp, .nt .Unary, .nt .TailB, .t (.kw .AND), .nt .Unary],
      [.nt .LikeOp, .nt .Unary],
      [.nt .LogicOp, .nt .NotUnary]]
-- InOp ::= IN | NOT IN
  | .InOp => [[.t (.kw .IN)],
      [.t (.kw .NOT), .t (.kw .IN)]]
-- BetweenOp ::= BETWEEN | NOT BETWEEN
  | .BetweenOp => [[.t (.kw .BETWEEN)],
      [.t (.kw .NOT), .t (.kw .BETWEEN)]]
-- LikeOp ::= LIKE | NOT LIKE
  | .LikeOp => [[.t (.kw .LIKE)],
      [.t (.kw .NOT), .t (.kw .LIKE)]]
-- IsWhat ::= NULL | TRUE | FALSE
  | .IsWhat => [[.t (.kw .NULL)],
      [.t (.kw .TRUE)],
      [.t (.kw .FALSE)]]
-- ArithOp ::= '*' | '/' | '||' | '+' | '-' | '<<' | '>>' | '&' | '^' | '|'
  | .ArithOp => [[.t (.kw .sym_star)],
      [.t (.kw .sym_slash)],
      [.t (.kw .sym_concat)],
      [.t (.kw .sym_plus)],
      [.t (.kw .sym_minus)],
      [.t (.kw .sym_shl)],
      [.t (.kw .sym_shr)],
      [.t (.kw .sym_amp)],
      [.t (.kw .sym_caret)],
      [.t (.kw .sym_bar)]]
-- CompOp ::= '=' | '<' | '>' | '<=' | '>=' | '!=' | '<>'
  | .CompOp => [[.t (.kw .sym_eq)],
      [.t (.kw .sym_lt)],
      [.t (.kw .sym_gt)],
      [.t (.kw .sym_le)],
      [.t (.kw .sym_ge)],
      [.t (.kw .sym_ne)],
      [.t (.kw .sym_ltgt)]]
-- LogicOp ::= AND | OR
  | .LogicOp => [[.t (.kw .AND)],
      [.t (.kw .OR)]]
-- TailB ::= ε | ArithOp Unary TailB
  | .TailB => [[],
      [.nt .ArithOp, .nt .Unary, .nt .TailB]]
-- Primary ::= NAME '(' CallArgs ')' Over? Post | NAME Post | NUM | STR | PAR Post | TRUE | FALSE | 
-- NULL | TypedLit | RANGE '<' Type '>' STR | '(' InQueryE ')' Post | '(' ')' Post | '(' ExprList ')' 
-- Post | '[' ']' Post | '[' ExprList ']' Post | ARRAY '(' InQueryE ')' Post | ARRAY '<' Type '>' '[' 
-- ExprList ']' Post | ARRAY '<' Type '>' '[' ']' Post | ARRAY '[' ExprList ']' Post | ARRAY '[' ']' 
-- Post | STRUCT '(' ')' Post | STRUCT '(' AliasedList ')' Post | STRUCT '<' FieldList '>' '(' 
-- AliasedList ')' Post | CASE Expr? CaseArms CaseElse? END | CAST '(' Expr AS Type CastFormat? ')' 
-- Post | SAFE_CAST '(' Expr AS Type CastFormat? ')' Post | EXTRACT '(' Expr FROM Expr AtTimeZone? ')' 
-- Post | EXISTS '(' InQueryE ')' | FuncWord '(' CallArgs ')' Post | INTERVAL Expr ID | INTERVAL Expr 
-- ID TO ID
  | .Primary => [[.t .name, .t (.kw .sym_lparen), .nt .CallArgs, .t (.kw .sym_rparen), .nt .OverOpt, .nt .Post],
      [.t .name, .nt .Post],
      [.t .number],
      [.t .string],
      [.t .param, .nt .Post],
      [.t (.kw .TRUE)],
      [.t (.kw .FALSE)],
      [.t (.kw .NULL)],
      [.nt .TypedLit],
      [.t (.kw .RANGE), .t (.kw .sym_lt), .nt .Type, .t (.kw .sym_gt), .t .string],
      [.t (.kw .sym_lparen), .nt .InQueryE, .t (.kw .sym_rparen), .nt .Post],
      [.t (.kw .sym_lparen), .t (.kw .sym_rparen), .nt .Post],
      [.t (.kw .sym_lparen), .nt .ExprList, .t (.kw .sym_rparen), .nt .Post],
      [.t (.kw .sym_lbrack), .t (.kw .sym_rbrack), .nt .Post],
      [.t (.kw .sym_lbrack), .nt .ExprList, .t (.kw .sym_rbrack), .nt .Post],
      [.t (.kw .ARRAY), .t (.kw .sym_lparen), .nt .InQueryE, .t (.kw .sym_rparen), .nt .Post],
      [.t (.kw .ARRAY), .t (.kw .sym_lt), .nt .Type, .t (.kw .sym_gt), .t (.kw .sym_lbrack), .nt .ExprList, .t (.kw .sym_rbrack), .nt .Post],
      [.t (.kw .ARRAY), .t (.kw .sym_lt), .nt .Type, .t (.kw .sym_gt), .t (.kw .sym_lbrack), .t (.kw .sym_rbrack), .nt .Post],
      [.t (.kw .ARRAY), .t (.kw .sym_lbrack), .nt .ExprList, .t (.kw .sym_rbrack), .nt .Post],
      [.t (.kw .ARRAY), .t (.kw .sym_lbrack), .t (.kw .sym_rbrack), .nt .Post],
      [.t (.kw .STRUCT), .t (.kw .sym_lparen), .t (.kw .sym_rparen), .nt .Post],
      [.t (.kw .STRUCT), .t (.kw .sym_lparen), .nt .AliasedList, .t (.kw .sym_rparen), .nt .Post],
      [.t (.kw .STRUCT), .t (.kw .sym_lt), .nt .FieldList, .t (.kw .sym_gt), .t (.kw .sym_lparen), .nt .AliasedList, .t (.kw .sym_rparen), .nt .Post],
      [.t (.kw .CASE), .nt .ExprOpt, .nt .CaseArms, .nt .CaseElseOpt, .t (.kw .END)],
      [.t (.kw .CAST), .t (.kw .sym_lparen), .nt .Expr, .t (.kw .AS), .nt .Type, .nt .CastFormatOpt, .t (.kw .sym_rparen), .nt .Post],
      [.t (.kw .SAFE_CAST), .t (.kw .sym_lparen), .nt .Expr, .t (.kw .AS), .nt .Type, .nt .CastFormatOpt, .t (.kw .sym_rparen), .nt .Post],
      [.t (.kw .EXTRACT), .t (.kw .sym_lparen), .nt .Expr, .t (.kw .FROM), .nt .Expr, .nt .AtTimeZoneOpt, .t (.kw .sym_rparen), .nt .Post],
      [.t (.kw .EXISTS), .t (.kw .sym_lparen), .nt .InQueryE, .t (.kw .sym_rparen)],
      [.nt .FuncWord, .t (.kw .sym_lparen), .nt .CallArgs, .t (.kw .sym_rparen), .nt .Post],
      [.t (.kw .INTERVAL), .nt .Expr, .t .ident],
      [.t (.kw .INTERVAL), .nt .Expr, .t .ident, .t (.kw .TO), .t .ident]]
-- FuncWord ::= IF | LEFT | RIGHT
  | .FuncWord => [[.t (.kw .IF)],
      [.t (.kw .LEFT)],
      [.t (.kw .RIGHT)]]
-- TypedLit ::= DateWord STR | RawWord STR | DateWord RawWord STR
  | .TypedLit => [[.nt .DateWord, .t .string],
      [.nt .RawWord, .t .string],
      [.nt .DateWord, .nt .RawWord, .t .string]]
-- DateWord ::= DATE | TIME | DATETIME | TIMESTAMP | NUMERIC | BIGNUMERIC | DECIMAL | BIGDECIMAL | JSON
  | .DateWord => [[.t (.kw .DATE)],
      [.t (.kw .TIME)],
      [.t (.kw .DATETIME)],
      [.t (.kw .TIMESTAMP)],
      [.t (.kw .NUMERIC)],
      [.t (.kw .BIGNUMERIC)],
      [.t (.kw .DECIMAL)],
      [.t (.kw .BIGDECIMAL)],
      [.t (.kw .JSON)]]
-- RawWord ::= B | R | BR | RB
  | .RawWord => [[.t (.kw .B)],
      [.t (.kw .R)],
      [.t (.kw .BR)],
      [.t (.kw .RB)]]
-- Post ::= ε | PostStep Post
  | .Post => [[],
      [.nt .PostStep, .nt .Post]]
-- PostStep ::= '[' Expr ']' | '.' WORD | '.' ID '(' CallArgs ')' Over?
  | .PostStep => [[.t (.kw .sym_lbrack), .nt .Expr, .t (.kw .sym_rbrack)],
      [.t (.kw .sym_dot), .t .anyWord],
      [.t (.kw .sym_dot), .t .ident, .t (.kw .sym_lparen), .nt .CallArgs, .t (.kw .sym_rparen), .nt .OverOpt]]
-- CallArgs ::= ε | '*' | DISTINCT? Args AggMods
  | .CallArgs => [[],
      [.t (.kw .sym_star)],
      [.nt .DistinctOpt, .nt .Args, .nt .AggMods]]
-- Args ::= Arg ',' Args | Arg
  | .Args => [[.nt .Arg, .t (.kw .sym_comma), .nt .Args],
      [.nt .Arg]]
-- Arg ::= Expr | ID '=>' Expr
  | .Arg => [[.nt .Expr],
      [.t .ident, .t (.kw .sym_arrow), .nt .Expr]]
-- AggMods ::= NullsMod? AggHaving | NullsMod? OrderBy? AggLimit?
  | .AggMods => [[.nt .NullsModOpt, .nt .AggHaving],
      [.nt .NullsModOpt, .nt .OrderByOpt, .nt .AggLimitOpt]]
-- NullsMod ::= RESPECT NULLS | IGNORE NULLS
  | .NullsMod => [[.t (.kw .RESPECT), .t (.kw .NULLS)],
      [.t (.kw .IGNORE), .t (.kw .NULLS)]]
-- AggLimit ::= LIMIT Expr
  | .AggLimit => [[.t (.kw .LIMIT), .nt .Expr]]
-- AggHaving ::= HAVING MAX Expr | HAVING MIN Expr
  | .AggHaving => [[.t (.kw .HAVING), .t (.word ['M', 'A', 'X']), .nt .Expr],
      [.t (.kw .HAVING), .t (.word ['M', 'I', 'N']), .nt .Expr]]
-- Over ::= OVER WindowSpec
  | .Over => [[.t (.kw .OVER), .nt .WindowSpec]]
-- CaseArms ::= CaseArm | CaseArm CaseArms
  | .CaseArms => [[.nt .CaseArm],
      [.nt .CaseArm, .nt .CaseArms]]
-- CaseArm ::= WHEN Expr THEN Expr
  | .CaseArm => [[.t (.kw .WHEN), .nt .Expr, .t (.kw .THEN), .nt .Expr]]
-- CaseElse ::= ELSE Expr
  | .CaseElse => [[.t (.kw .ELSE), .nt .Expr]]
-- CastFormat ::= FORMAT Expr
  | .CastFormat => [[.t (.kw .FORMAT), .nt .Expr]]
-- AtTimeZone ::= AT TIME ZONE Expr
  | .AtTimeZone => [[.t (.kw .AT), .t (.kw .TIME), .t (.word ['Z', 'O', 'N', 'E']), .nt .Expr]]
-- Type ::= NAME | NAME '(' ExprList ')' | INTERVAL | ARRAY '<' Type '>' | RANGE '<' Type '>' | STRUCT 
-- '<' FieldList '>'
  | .Type => [[.t .name],
      [.t .name, .t (.kw .sym_lparen), .nt .ExprList, .t (.kw .sym_rparen)],
      [.t (.kw .INTERVAL)],
      [.t (.kw .ARRAY), .t (.kw .sym_lt), .nt .Type, .t (.kw .sym_gt)],
      [.t (.kw .RANGE), .t (.kw .sym_lt), .nt .Type, .t (.kw .sym_gt)],
      [.t (.kw .STRUCT), .t (.kw .sym_lt), .nt .FieldList, .t (.kw .sym_gt)]]
-- FieldList ::= Field ',' FieldList | Field
  | .FieldList => [[.nt .Field, .t (.kw .sym_comma), .nt .FieldList],
      [.nt .Field]]
-- Field ::= NAME Type | NAME | ARRAY '<' Type '>' | STRUCT '<' FieldList '>'
  | .Field => [[.t .name, .nt .Type],
      [.t .name],
      [.t (.kw .ARRAY), .t (.kw .sym_lt), .nt .Type, .t (.kw .sym_gt)],
      [.t (.kw .STRUCT), .t (.kw .sym_lt), .nt .FieldList, .t (.kw .sym_gt)]]
-- SchemaType ::= NAME | NAME '(' ExprList ')' | INTERVAL | ARRAY '<' SchemaType FieldRest '>' | RANGE 
-- '<' SchemaType FieldRest '>' | STRUCT '<' SchemaFields '>'
  | .SchemaType => [[.t .name],
      [.t .name, .t (.kw .sym_lparen), .nt .ExprList, .t (.kw .sym_rparen)],
      [.t (.kw .INTERVAL)],
      [.t (.kw .ARRAY), .t (.kw .sym_lt), .nt .SchemaType, .nt .FieldRest, .t (.kw .sym_gt)],
      [.t (.kw .RANGE), .t (.kw .sym_lt), .nt .SchemaType, .nt .FieldRest, .t (.kw .sym_gt)],
      [.t (.kw .STRUCT), .t (.kw .sym_lt), .nt .SchemaFields, .t (.kw .sym_gt)]]
-- SchemaFields ::= SchemaField ',' SchemaFields | SchemaField
  | .SchemaFields => [[.nt .SchemaField, .t (.kw .sym_comma), .nt .SchemaFields],
      [.nt .SchemaField]]
-- SchemaField ::= NAME SchemaType FieldRest | NAME | ARRAY '<' SchemaType FieldRest '>' FieldRest | 
-- STRUCT '<' SchemaFields '>' FieldRest
  | .SchemaField => [[.t .name, .nt .SchemaType, .nt .FieldRest],
      [.t .name],
      [.t (.kw .ARRAY), .t (.kw .sym_lt), .nt .SchemaType, .nt .FieldRest, .t (.kw .sym_gt), .nt .FieldRest],
      [.t (.kw .STRUCT), .t (.kw .sym_lt), .nt .SchemaFields, .t (.kw .sym_gt), .nt .FieldRest]]
-- FieldRest ::= ColumnCollate? FieldEnd
  | .FieldRest => [[.nt .ColumnCollateOpt, .nt .FieldEnd]]
-- FieldEnd ::= ε | Options | NOT NULL Options?
  | .FieldEnd => [[],
      [.nt .Options],
      [.t (.kw .NOT), .t (.kw .NULL), .nt .OptionsOpt]]
-- IdOpt ::= ε | ID
  | .IdOpt => [[],
      [.t .ident]]
-- IntoOpt ::= ε | INTO
  | .IntoOpt => [[],
      [.t (.kw .INTO)]]
-- FromOpt ::= ε | FROM
  | .FromOpt => [[],
      [.t (.kw .FROM)]]
-- AliasOpt ::= ε | Alias
  | .AliasOpt => [[],
      [.nt .Alias]]
-- FromClauseOpt ::= ε | FromClause
  | .FromClauseOpt => [[],
      [.nt .FromClause]]
-- WhereOpt ::= ε | Where
  | .WhereOpt => [[],
      [.nt .Where]]
-- NotOpt ::= ε | NOT
  | .NotOpt => [[],
      [.t (.kw .NOT)]]
-- MatchedByOpt ::= ε | MatchedBy
  | .MatchedByOpt => [[],
      [.nt .MatchedBy]]
-- MatchedAndOpt ::= ε | MatchedAnd
  | .MatchedAndOpt => [[],
      [.nt .MatchedAnd]]
-- ExternalOpt ::= ε | EXTERNAL
  | .ExternalOpt => [[],
      [.t (.kw .EXTERNAL)]]
-- IfNotExistsOpt ::= ε | IfNotExists
  | .IfNotExistsOpt => [[],
      [.nt .IfNotExists]]
-- CollateOpt ::= ε | Collate
  | .CollateOpt => [[],
      [.nt .Collate]]
-- ConnectionOpt ::= ε | Connection
  | .ConnectionOpt => [[],
      [.nt .Connection]]
-- OptionsOpt ::= ε | Options
  | .OptionsOpt => [[],
      [.nt .Options]]
-- OrReplaceOpt ::= ε | OrReplace
  | .OrReplaceOpt => [[],
      [.nt .OrReplace]]
-- StoringOpt ::= ε | Storing
  | .StoringOpt => [[],
      [.nt .Storing]]
-- PartitionByOpt ::= ε | PartitionBy
  | .PartitionByOpt => [[],
      [.nt .PartitionBy]]
-- TempWordOpt ::= ε | TempWord
  | .TempWordOpt => [[],
      [.nt .TempWord]]
-- TableSourceOpt ::= ε | TableSource
  | .TableSourceOpt => [[],
      [.nt .TableSource]]
-- ColumnsOpt ::= ε | Columns
  | .ColumnsOpt => [[],
      [.nt .Columns]]
-- ClusterByOpt ::= ε | ClusterBy
  | .ClusterByOpt => [[],
      [.nt .ClusterBy]]
-- PartitionColumnsOpt ::= ε | PartitionColumns
  | .PartitionColumnsOpt => [[],
      [.nt .PartitionColumns]]
-- AsQueryOpt ::= ε | AsQuery
  | .AsQueryOpt => [[],
      [.nt .AsQuery]]
-- PlainColumnsOpt ::= ε | PlainColumns
  | .PlainColumnsOpt => [[],
      [.nt .PlainColumns]]
-- ColumnCollateOpt ::= ε | ColumnCollate
  | .ColumnCollateOpt => [[],
      [.nt .ColumnCollate]]
-- EnforcedOpt ::= ε | Enforced
  | .EnforcedOpt => [[],
      [.nt .Enforced]]
-- ViewColumnsOpt ::= ε | ViewColumns
  | .ViewColumnsOpt => [[],
      [.nt .ViewColumns]]
-- AggregateOpt ::= ε | AGGREGATE
  | .AggregateOpt => [[],
      [.t (.kw .AGGREGATE)]]
-- ReturnsOpt ::= ε | Returns
  | .ReturnsOpt => [[],
      [.nt .Returns]]
-- NotAggregateOpt ::= ε | NotAggregate
  | .NotAggregateOpt => [[],
      [.nt .NotAggregate]]
-- NamedConnectionOpt ::= ε | NamedConnection
  | .NamedConnectionOpt => [[],
      [.nt .NamedConnection]]
-- ExternalSecurityOpt ::= ε | ExternalSecurity
  | .ExternalSecurityOpt => [[],
      [.nt .ExternalSecurity]]
-- GrantToOpt ::= ε | GrantTo
  | .GrantToOpt => [[],
      [.nt .GrantTo]]
-- TransformOpt ::= ε | Transform
  | .TransformOpt => [[],
      [.nt .Transform]]
-- InputOpt ::= ε | Input
  | .InputOpt => [[],
      [.nt .Input]]
-- OutputOpt ::= ε | Output
  | .OutputOpt => [[],
      [.nt .Output]]
-- RemoteOpt ::= ε | Remote
  | .RemoteOpt => [[],
      [.nt .Remote]]
-- ModelQueryOpt ::= ε | ModelQuery
  | .ModelQueryOpt => [[],
      [.nt .ModelQuery]]
-- ReservationBodyOpt ::= ε | ReservationBody
  | .ReservationBodyOpt => [[],
      [.nt .ReservationBody]]
-- IfExistsOpt ::= ε | IfExists
  | .IfExistsOpt => [[],
      [.nt .IfExists]]
-- MaterializedOpt ::= ε | MATERIALIZED
  | .MaterializedOpt => [[],
      [.t (.kw .MATERIALIZED)]]
-- TableNameOpt ::= ε | TableName
  | .TableNameOpt => [[],
      [.nt .TableName]]
-- DropModeOpt ::= ε | DropMode
  | .DropModeOpt => [[],
      [.nt .DropMode]]
-- DefaultValueOpt ::= ε | DefaultValue
  | .DefaultValueOpt => [[],
      [.nt .DefaultValue]]
-- IntoVarsOpt ::= ε | IntoVars
  | .IntoVarsOpt => [[],
      [.nt .IntoVars]]
-- UsingArgsOpt ::= ε | UsingArgs
  | .UsingArgsOpt => [[],
      [.nt .UsingArgs]]
-- HandlerOpt ::= ε | Handler
  | .HandlerOpt => [[],
      [.nt .Handler]]
-- ElseOpt ::= ε | Else
  | .ElseOpt => [[],
      [.nt .Else]]
-- ExprOpt ::= ε | Expr
  | .ExprOpt => [[],
      [.nt .Expr]]
-- RaiseUsingOpt ::= ε | RaiseUsing
  | .RaiseUsingOpt => [[],
      [.nt .RaiseUsing]]
-- AssertAsOpt ::= ε | AssertAs
  | .AssertAsOpt => [[],
      [.nt .AssertAs]]
-- LoadPartitionsOpt ::= ε | LoadPartitions
  | .LoadPartitionsOpt => [[],
      [.nt .LoadPartitions]]
-- RecursiveOpt ::= ε | RECURSIVE
  | .RecursiveOpt => [[],
      [.t (.kw .RECURSIVE)]]
-- OrderByOpt ::= ε | OrderBy
  | .OrderByOpt => [[],
      [.nt .OrderBy]]
-- LimitOpt ::= ε | Limit
  | .LimitOpt => [[],
      [.nt .Limit]]
-- SetNameOpt ::= ε | SetName
  | .SetNameOpt => [[],
      [.nt .SetName]]
-- OrdOpt ::= ε | Ord
  | .OrdOpt => [[],
      [.nt .Ord]]
-- PrivacyOpt ::= ε | Privacy
  | .PrivacyOpt => [[],
      [.nt .Privacy]]
-- SelModOpt ::= ε | SelMod
  | .SelModOpt => [[],
      [.nt .SelMod]]
-- SelAsOpt ::= ε | SelAs
  | .SelAsOpt => [[],
      [.nt .SelAs]]
-- GroupByOpt ::= ε | GroupBy
  | .GroupByOpt => [[],
      [.nt .GroupBy]]
-- HavingOpt ::= ε | Having
  | .HavingOpt => [[],
      [.nt .Having]]
-- QualifyOpt ::= ε | Qualify
  | .QualifyOpt => [[],
      [.nt .Qualify]]
-- WindowOpt ::= ε | Window
  | .WindowOpt => [[],
      [.nt .Window]]
-- StarModOpt ::= ε | StarMod
  | .StarModOpt => [[],
      [.nt .StarMod]]
-- FrameOpt ::= ε | Frame
  | .FrameOpt => [[],
      [.nt .Frame]]
-- JoinCondOpt ::= ε | JoinCond
  | .JoinCondOpt => [[],
      [.nt .JoinCond]]
-- SystemTimeOpt ::= ε | SystemTime
  | .SystemTimeOpt => [[],
      [.nt .SystemTime]]
-- TableOpOpt ::= ε | TableOp
  | .TableOpOpt => [[],
      [.nt .TableOp]]
-- SampleOpt ::= ε | Sample
  | .SampleOpt => [[],
      [.nt .Sample]]
-- WithOffsetOpt ::= ε | WithOffset
  | .WithOffsetOpt => [[],
      [.nt .WithOffset]]
-- TableArgsOpt ::= ε | TableArgs
  | .TableArgsOpt => [[],
      [.nt .TableArgs]]
-- PipeGroupByOpt ::= ε | PipeGroupBy
  | .PipeGroupByOpt => [[],
      [.nt .PipeGroupBy]]
-- UnpivotNullsOpt ::= ε | UnpivotNulls
  | .UnpivotNullsOpt => [[],
      [.nt .UnpivotNulls]]
-- RowAliasOpt ::= ε | RowAlias
  | .RowAliasOpt => [[],
      [.nt .RowAlias]]
-- MeasuresOpt ::= ε | Measures
  | .MeasuresOpt => [[],
      [.nt .Measures]]
-- AfterMatchOpt ::= ε | AfterMatch
  | .AfterMatchOpt => [[],
      [.nt .AfterMatch]]
-- OverOpt ::= ε | Over
  | .OverOpt => [[],
      [.nt .Over]]
-- CaseElseOpt ::= ε | CaseElse
  | .CaseElseOpt => [[],
      [.nt .CaseElse]]
-- CastFormatOpt ::= ε | CastFormat
  | .CastFormatOpt => [[],
      [.nt .CastFormat]]
-- AtTimeZoneOpt ::= ε | AtTimeZone
  | .AtTimeZoneOpt => [[],
      [.nt .AtTimeZone]]
-- DistinctOpt ::= ε | DISTINCT
  | .DistinctOpt => [[],
      [.t (.kw .DISTINCT)]]
-- NullsModOpt ::= ε | NullsMod
  | .NullsModOpt => [[],
      [.nt .NullsMod]]
-- AggLimitOpt ::= ε | AggLimit
  | .AggLimitOpt => [[],
      [.nt .AggLimit]]

/-- A sequence of literals is derived from a sequence of symbols. -/
inductive Derives : List Sym → List Str → Prop
  | nil : Derives [] []
  | term {a : Term} {l : Str} {X : List Sym} {u : List Str} (h : TermMatches a l) (hX : Derives X u) :
      Derives (.t a :: X) (l :: u)
  | rule {n : NT} {r : List Sym} {X : List Sym} {u v : List Str} (h : r ∈ rules n) (hr : Derives r u)
      (hX : Derives X v) : Derives (.nt n :: X) (u ++ v)

end Verif.Spec
