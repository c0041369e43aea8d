import Verif.Analysis.Accept
/-! Generated by tools/grammar.py: the grammar in the form used by the analysis (checked by `tables_ok`). -/
namespace Verif.GI
open AI Spec

/-- Productions. -/
def prodsT : NT → List (List GSym)
  | .Statement => [[.N .Plain ALL], [.N .PipeInsert ALL], [.N .PipeTable ALL], [.N .PipeView ALL], [.N .PipeFunction ALL], [.N .PipeExport ALL]]
  | .Plain => [[.N .PipeQuery ALL], [.N .Query ALL], [.N .Insert ALL], [.N .Delete ALL], [.N .Truncate ALL], [.N .Update ALL], [.N .Merge ALL], [.N .CreateSchema ALL], [.N .CreateIndex ALL], [.N .CreateTable ALL], [.N .CreateView ALL], [.N .CreateFunction ALL], [.N .CreateProcedure ALL], [.N .CreatePolicy ALL], [.N .CreateModel ALL], [.N .CreateReservation ALL], [.N .AlterSchema ALL], [.N .AlterTable ALL], [.N .AlterColumn ALL], [.N .AlterView ALL], [.N .AlterIndex ALL], [.N .AlterOther ALL], [.N .DropPolicy ALL], [.N .Drop ALL], [.N .Undrop ALL], [.N .Grant ALL], [.N .Revoke ALL], [.N .Declare ALL], [.N .Set ALL], [.N .Execute ALL], [.N .Begin ALL], [.N .If ALL], [.N .Case ALL], [.N .Loop ALL], [.N .Repeat ALL], [.N .While ALL], [.N .For ALL], [.N .Transaction ALL], [.N .Raise ALL], [.T 0x2000000000000000000000000000000000000000000000], [.N .Call ALL], [.N .Assert ALL], [.N .ExportData ALL], [.N .ExportModel ALL], [.N .Load ALL]]
  | .Block => [[], [.N .Step ALL, .T 0x400, .N .Block ALL]]
  | .Step => [[.N .Statement ALL], [.N .Jump ALL]]
  | .PlainStep => [[.N .Plain ALL], [.N .Jump ALL]]
  | .Jump => [[.N .JumpWord ALL, .N .IdOpt ALL]]
  | .JumpWord => [[.T 0x40000000000], [.T 0x40000000000000000000000000000000], [.T 0x200000000000000], [.T 0x800000000000000000000000000000]]
  | .Insert => [[.T 0x40000000000000000000000000000, .N .IntoOpt ALL, .N .TableName ALL, .T 0x4, .N .ExprList ALL, .T 0x8, .N .InsertInput ALL], [.T 0x40000000000000000000000000000, .N .IntoOpt ALL, .N .TableName ALL, .N .InsertRows ALL], [.T 0x40000000000000000000000000000, .N .IntoOpt ALL, .N .TableName ALL, .N .QueryN ALL]]
  | .InsertInput => [[.N .InsertRows ALL], [.N .Query ALL]]
  | .PipeInsert => [[.T 0x40000000000000000000000000000, .N .IntoOpt ALL, .N .TableName ALL, .T 0x4, .N .ExprList ALL, .T 0x8, .N .SelPipe ALL]]
  | .InsertRows => [[.T 0x40000000000000000000000000000000000000000000000000000000, .N .Rows ALL]]
  | .Rows => [[.N .Row ALL, .T 0x40, .N .Rows ALL], [.N .Row ALL]]
  | .Row => [[.T 0x4, .N .ValueList ALL, .T 0x8]]
  | .ValueList => [[.N .Value ALL, .T 0x40, .N .ValueList ALL], [.N .Value ALL]]
  | .Value => [[.N .Expr ALL], [.T 0x200000000000000000]]
  | .Delete => [[.T 0x800000000000000000, .N .FromOpt ALL, .N .TableName ALL, .N .AliasOpt ALL, .T 0x400000000000000000000000000000000000000000000000000000000, .N .Expr ALL]]
  | .Truncate => [[.T 0x100000000000000000000000000000000000000000000000000000, .T 0x80000000000000000000000000000000000000000000000000, .N .TableName ALL]]
  | .Update => [[.T 0x10000000000000000000000000000000000000000000000000000000, .N .TablePrim ALL, .N .Joins ALL, .N .UpdateSet ALL]]
  | .UpdateSet => [[.T 0x2000000000000000000000000000000000000000000000000, .N .SetItems ALL, .N .FromClauseOpt ALL, .N .WhereOpt ALL]]
  | .SetItems => [[.N .SetItem ALL, .T 0x40, .N .SetItems ALL], [.N .SetItem ALL]]
  | .SetItem => [[.N .Expr ALL], [.T 0xc00000000000000000099c933634c2f7f119d48100f45e86402223a8aa9f0e7675d282e00000, .N .Post ALL, .T 0x8000, .T 0x200000000000000000]]
  | .Merge => [[.T 0x10000000000000000000000000000000000, .N .IntoOpt ALL, .N .TableName ALL, .N .AliasOpt ALL, .T 0x20000000000000000000000000000000000000000000000000000000, .N .MergeSource ALL, .T 0x8000000000000000000000000000000000000, .N .Expr ALL, .N .Whens ALL]]
  | .MergeSource => [[.T 0xc00000000000000000099c933634c2f7f119d48100f45e86402223a8aa9f0e7675d282e00000, .N .Post ALL, .N .AliasOpt ALL], [.T 0x4, .N .InQueryE ALL, .T 0x8, .N .AliasOpt ALL]]
  | .Whens => [[.N .When ALL], [.N .When ALL, .N .Whens ALL]]
  | .When => [[.T 0x200000000000000000000000000000000000000000000000000000000, .N .NotOpt ALL, .T 0x4000000000000000000000000000000000000000000000000000000000000000000000000000, .N .MatchedByOpt ALL, .N .MatchedAndOpt ALL, .T 0x800000000000000000000000000000000000000000000000000, .N .MergeAction ALL]]
  | .MatchedBy => [[.T 0x80000000000, .T 0x4000000000000000000000000000000000000000000000000000000000000000000000000000], [.T 0x80000000000, .T 0x4000000000000000000000000000000000000000000000000000000000000000000000000000]]
  | .MatchedAnd => [[.T 0x4000000, .N .Expr ALL]]
  | .MergeAction => [[.T 0x800000000000000000], [.T 0x10000000000000000000000000000000000000000000000000000000, .T 0x2000000000000000000000000000000000000000000000000, .N .SetItems ALL], [.T 0x40000000000000000000000000000, .N .MergeInput ALL], [.T 0x40000000000000000000000000000, .T 0x4, .N .ExprList ALL, .T 0x8, .N .MergeInput ALL]]
  | .MergeInput => [[.T 0x80000000000000000000000000000000000000000000000], [.T 0x40000000000000000000000000000000000000000000000000000000, .N .Row ALL]]
  | .OrReplace => [[.T 0x20000000000000000000000000000000000000, .T 0x100000000000000000000000000000000000000000000]]
  | .IfNotExists => [[.T 0x800000000000000000000000000, .T 0x200000000000000000000000000000000000, .T 0x4000000000000000000000]]
  | .IfExists => [[.T 0x800000000000000000000000000, .T 0x4000000000000000000000]]
  | .Options => [[.T 0x10000000000000000000000000000000000000, .T 0x4, .T 0x8], [.T 0x10000000000000000000000000000000000000, .T 0x4, .N .ExprList ALL, .T 0x8]]
  | .Connection => [[.T 0x2000000000000000000000000000000000000000000000000000000000, .T 0x40000000000000, .N .TableName ALL], [.T 0x2000000000000000000000000000000000000000000000000000000000, .T 0x40000000000000, .T 0x200000000000000000]]
  | .NamedConnection => [[.T 0x2000000000000000000000000000000000000000000000000000000000, .T 0x40000000000000, .N .TableName ALL]]
  | .Collate => [[.T 0x200000000000000000, .T 0x8000000000000, .T 0x20000000000000000000000000000000000000000000000000000000000000000000000000000]]
  | .ClusterBy => [[.T 0x4000000000000, .T 0x80000000000, .N .ExprList ALL]]
  | .CreateSchema => [[.T 0x1000000000000000, .N .ExternalOpt ALL, .T 0x400000000000000000000000000000000000000000000000, .N .IfNotExistsOpt ALL, .N .TableName ALL, .N .CollateOpt ALL, .N .ConnectionOpt ALL, .N .OptionsOpt ALL]]
  | .CreateIndex => [[.T 0x1000000000000000, .N .OrReplaceOpt ALL, .N .IndexKind ALL, .T 0x4000000000000000000000000000000000000000000000000000000000000000000000000000, .N .IfNotExistsOpt ALL, .N .TableName ALL, .T 0x8000000000000000000000000000000000000, .N .TableName ALL, .N .IndexCols ALL, .N .StoringOpt ALL, .N .PartitionByOpt ALL, .N .OptionsOpt ALL]]
  | .IndexKind => [[.T 0x800000000000000000000000000000000000000000000000], [.T 0x80000000000000000000000000000000000000000000000000000000]]
  | .IndexCols => [[.T 0x4, .T 0x1000000, .T 0x4000000000000000000000000000000000000000000000000000000000000000000000000000, .T 0x8], [.T 0x4, .N .ExprList ALL, .T 0x8]]
  | .Storing => [[.T 0x10000000000000000000000000000000000000000000000000, .T 0x4, .N .ExprList ALL, .T 0x8]]
  | .CreateTable => [[.T 0x1000000000000000, .N .OrReplaceOpt ALL, .N .TempWordOpt ALL, .T 0x80000000000000000000000000000000000000000000000000, .N .IfNotExistsOpt ALL, .N .TableName ALL, .N .TableSourceOpt ALL, .N .ColumnsOpt ALL, .N .CollateOpt ALL, .N .PartitionByOpt ALL, .N .ClusterByOpt ALL, .N .TableEnd ALL], [.T 0x1000000000000000, .N .OrReplaceOpt ALL, .T 0x4000000000000000000000000000000000000000000000000, .T 0x80000000000000000000000000000000000000000000000000, .N .IfNotExistsOpt ALL, .N .TableName ALL, .N .CloneOf ALL], [.T 0x1000000000000000, .N .OrReplaceOpt ALL, .T 0x20000000000000000000000, .T 0x80000000000000000000000000000000000000000000000000, .N .IfNotExistsOpt ALL, .N .TableName ALL, .N .ColumnsOpt ALL, .N .ConnectionOpt ALL, .N .PartitionColumnsOpt ALL, .N .OptionsOpt ALL]]
  | .TableEnd => [[.N .OptionsOpt ALL, .N .AsQueryOpt ALL], [.N .CloneOf ALL]]
  | .TempWord => [[.T 0x200000000000000000000000000000000000000000000000000], [.T 0x400000000000000000000000000000000000000000000000000]]
  | .TableSource => [[.T 0x100000000000000000000000000000000, .N .TableName ALL], [.T 0x400000000000000, .N .TableName ALL]]
  | .CloneOf => [[.T 0x2000000000000, .N .TableName ALL], [.T 0x2000000000000, .N .TableName ALL, .N .SystemTime ALL, .N .OptionsOpt ALL]]
  | .PartitionColumns => [[.T 0x2000000000000000000000000000000000000000000000000000000000, .T 0x2000000000000000000000000000000000000000, .T 0x4000000000000000000000000000000000000000000000000000000000000000000000000000, .N .PlainColumnsOpt ALL]]
  | .AsQuery => [[.T 0x20000000, .N .Query ALL]]
  | .PipeTable => [[.T 0x1000000000000000, .N .OrReplaceOpt ALL, .N .TempWordOpt ALL, .T 0x80000000000000000000000000000000000000000000000000, .N .IfNotExistsOpt ALL, .N .TableName ALL, .N .TableSourceOpt ALL, .N .ColumnsOpt ALL, .N .CollateOpt ALL, .N .PartitionByOpt ALL, .N .ClusterByOpt ALL, .N .OptionsOpt ALL, .T 0x20000000, .N .SelPipe ALL]]
  | .Columns => [[.T 0x4, .T 0x8], [.T 0x4, .N .ColumnList ALL, .T 0x8]]
  | .ColumnList => [[.N .Column ALL, .T 0x40, .N .ColumnList ALL], [.N .Column ALL]]
  | .Column => [[.T 0xc00000000000000000099c933634c2f7f119d48100f45e86402223a8aa9f0e7675d282e00000, .N .SchemaType ALL, .N .ColumnRest ALL], [.N .TableConstraint ALL]]
  | .PlainColumns => [[.T 0x4, .N .PlainColumnList ALL, .T 0x8]]
  | .PlainColumnList => [[.N .PlainColumn ALL, .T 0x40, .N .PlainColumnList ALL], [.N .PlainColumn ALL]]
  | .PlainColumn => [[.T 0xc00000000000000000099c933634c2f7f119d48100f45e86402223a8aa9f0e7675d282e00000, .N .Type ALL, .N .ColumnCollateOpt ALL]]
  | .ColumnRest => [[.N .ColumnCollateOpt ALL, .N .ColumnMore ALL]]
  | .ColumnMore => [[.N .ColumnKey ALL, .N .Enforced ALL, .N .ColumnEnd ALL], [.N .ColumnKey ALL, .N .ColumnDefault ALL], [.N .ColumnEnd ALL]]
  | .ColumnCollate => [[.T 0x8000000000000, .T 0x20000000000000000000000000000000000000000000000000000000000000000000000000000]]
  | .ColumnKey => [[.T 0x40000000000000000000000000000000000000000, .T 0x4000000000000000000000000000000], [.N .ColumnConstraint ALL, .N .References ALL], [.N .References ALL]]
  | .References => [[.T 0x10000000000000000000000000000000000000000000, .N .TvfName ALL, .T 0x4, .N .ExprList ALL, .T 0x8]]
  | .ColumnConstraint => [[.T 0x80000000000000, .T 0xc00000000000000000099c933634c2f7f119d48100f45e86402223a8aa9f0e7675d282e00000]]
  | .Enforced => [[.T 0x200000000000000000000000000000000000, .T 0x80000000000000000000], [.T 0x80000000000000000000]]
  | .ColumnDefault => [[.T 0x200000000000000000, .N .Expr ALL, .N .OptionsOpt ALL], [.N .OptionsOpt ALL]]
  | .ColumnEnd => [[.N .ColumnDefault ALL], [.T 0x200000000000000000000000000000000000, .T 0x400000000000000000000000000000000000, .N .OptionsOpt ALL]]
  | .TableConstraint => [[.N .ConstraintName ALL, .N .TableKey ALL], [.N .TableKey ALL]]
  | .TableKey => [[.T 0x40000000000000000000000000000000000000000, .T 0x4000000000000000000000000000000, .T 0x4, .N .ExprList ALL, .T 0x8, .N .EnforcedOpt ALL], [.T 0x1000000000000000000000000, .T 0x4000000000000000000000000000000, .T 0x4, .N .ExprList ALL, .T 0x8, .N .References ALL, .N .EnforcedOpt ALL]]
  | .ConstraintName => [[.T 0x80000000000000, .N .IfNotExistsOpt ALL, .T 0xc00000000000000000099c933634c2f7f119d48100f45e86402223a8aa9f0e7675d282e00000]]
  | .CreateView => [[.T 0x1000000000000000, .N .OrReplaceOpt ALL, .T 0x100000000000000000000000000000000000000000000000000000000, .N .IfNotExistsOpt ALL, .N .TableName ALL, .N .ViewColumnsOpt ALL, .N .OptionsOpt ALL, .T 0x20000000, .N .Query ALL], [.T 0x1000000000000000, .N .OrReplaceOpt ALL, .T 0x4000000000000000000000000000000000, .T 0x100000000000000000000000000000000000000000000000000000000, .N .IfNotExistsOpt ALL, .N .TableName ALL, .N .PartitionByOpt ALL, .N .ClusterByOpt ALL, .N .OptionsOpt ALL, .N .ViewBody ALL]]
  | .ViewBody => [[.T 0x20000000, .N .Query ALL], [.T 0x20000000, .T 0x200000000000000000000000000000000000000000000, .T 0x2000000000000000000000000000000000000, .N .TableName ALL]]
  | .PipeView => [[.T 0x1000000000000000, .N .OrReplaceOpt ALL, .T 0x100000000000000000000000000000000000000000000000000000000, .N .IfNotExistsOpt ALL, .N .TableName ALL, .N .ViewColumnsOpt ALL, .N .OptionsOpt ALL, .T 0x20000000, .N .SelPipe ALL], [.T 0x1000000000000000, .N .OrReplaceOpt ALL, .T 0x4000000000000000000000000000000000, .T 0x100000000000000000000000000000000000000000000000000000000, .N .IfNotExistsOpt ALL, .N .TableName ALL, .N .PartitionByOpt ALL, .N .ClusterByOpt ALL, .N .OptionsOpt ALL, .T 0x20000000, .N .SelPipe ALL]]
  | .ViewColumns => [[.T 0x4, .N .ViewColumnList ALL, .T 0x8]]
  | .ViewColumnList => [[.T 0xc00000000000000000099c933634c2f7f119d48100f45e86402223a8aa9f0e7675d282e00000, .N .OptionsOpt ALL, .T 0x40, .N .ViewColumnList ALL], [.T 0xc00000000000000000099c933634c2f7f119d48100f45e86402223a8aa9f0e7675d282e00000, .N .OptionsOpt ALL]]
  | .CreateFunction => [[.T 0x1000000000000000, .N .OrReplaceOpt ALL, .N .TempWordOpt ALL, .N .AggregateOpt ALL, .T 0x10000000000000000000000000, .N .IfNotExistsOpt ALL, .N .TableName ALL, .N .Parameters ALL, .N .ReturnsOpt ALL, .N .FunctionBody ALL], [.T 0x1000000000000000, .N .OrReplaceOpt ALL, .T 0x80000000000000000000000000000000000000000000000000, .T 0x10000000000000000000000000, .N .IfNotExistsOpt ALL, .N .TableName ALL, .N .Parameters ALL, .N .ReturnsOpt ALL, .T 0x20000000, .N .Query ALL]]
  | .PipeFunction => [[.T 0x1000000000000000, .N .OrReplaceOpt ALL, .T 0x80000000000000000000000000000000000000000000000000, .T 0x10000000000000000000000000, .N .IfNotExistsOpt ALL, .N .TableName ALL, .N .Parameters ALL, .N .ReturnsOpt ALL, .T 0x20000000, .N .SelPipe ALL]]
  | .Parameters => [[.T 0x4, .T 0x8], [.T 0x4, .N .ParameterList ALL, .T 0x8]]
  | .ParameterList => [[.N .Parameter ALL, .T 0x40, .N .ParameterList ALL], [.N .Parameter ALL]]
  | .Parameter => [[.T 0xc00000000000000000099c933634c2f7f119d48100f45e86402223a8aa9f0e7675d282e00000, .N .ParamType ALL, .N .NotAggregateOpt ALL]]
  | .ParamType => [[.N .Type ALL], [.T 0x8000000, .T 0x200000000000000000000000000000000000000000000000000000]]
  | .NotAggregate => [[.T 0x200000000000000000000000000000000000, .T 0x800000]]
  | .Returns => [[.T 0x4000000000000000000000000000000000000000000000, .N .ReturnType ALL]]
  | .ReturnType => [[.N .Type ALL], [.T 0x80000000000000000000000000000000000000000000000000, .T 0x800, .N .FieldList ALL, .T 0x20000]]
  | .FunctionBody => [[.T 0x20000000, .T 0x4, .N .Expr ALL, .T 0x8], [.T 0x20000000000000000000000000000000000000000000, .N .NamedConnection ALL, .N .OptionsOpt ALL], [.N .LanguageBody ALL], [.N .Determinism ALL, .N .LanguageBody ALL]]
  | .LanguageBody => [[.T 0x8000000000000000000000000000000, .T 0xc000000000000000000000000000000000000000000000000000000000000000000000000000, .N .NamedConnectionOpt ALL, .N .OptionsOpt ALL, .T 0x20000000, .N .Expr ALL]]
  | .Determinism => [[.T 0x2000000000000000000], [.T 0x200000000000000000000000000000000000, .T 0x2000000000000000000]]
  | .CreateProcedure => [[.T 0x1000000000000000, .N .OrReplaceOpt ALL, .T 0x80000000000000000000000000000000000000000, .N .IfNotExistsOpt ALL, .N .TableName ALL, .N .ProcParameters ALL, .N .ExternalSecurityOpt ALL, .N .ConnectionOpt ALL, .N .OptionsOpt ALL, .N .ProcBody ALL]]
  | .ProcParameters => [[.T 0x4, .T 0x8], [.T 0x4, .N .ProcParameterList ALL, .T 0x8]]
  | .ProcParameterList => [[.N .ProcParameter ALL, .T 0x40, .N .ProcParameterList ALL], [.N .ProcParameter ALL]]
  | .ProcParameter => [[.N .ParamMode ALL, .T 0xc00000000000000000099c933634c2f7f119d48100f45e86402223a8aa9f0e7675d282e00000, .N .ParamType ALL], [.T 0xc00000000000000000099c933634c2f7f119d48100f45e86402223a8aa9f0e7675d282e00000, .N .ParamType ALL]]
  | .ParamMode => [[.T 0x2000000000000000000000000000], [.T 0x100000000000000000000000000000000000000], [.T 0x10000000000000000000000000000]]
  | .ExternalSecurity => [[.T 0x20000000000000000000000, .T 0x4000000000000000000000000000000000000000000000000000000000000000000000000000, .T 0x4000000000000000000000000000000000000000000000000000000000000000000000000000]]
  | .ProcBody => [[.N .BeginBlock ALL], [.T 0x8000000000000000000000000000000, .T 0xc000000000000000000000000000000000000000000000000000000000000000000000000000], [.T 0x8000000000000000000000000000000, .T 0xc000000000000000000000000000000000000000000000000000000000000000000000000000, .T 0x20000000, .N .Expr ALL]]
  | .CreatePolicy => [[.T 0x1000000000000000, .N .OrReplaceOpt ALL, .T 0x80000000000000000000000000000000000000000000000, .T 0x4000000000000000000000000000000000000000000000000000000000000000000000000000, .T 0x4000000000000000000000000000000000000000000000000000000000000000000000000000, .N .IfNotExistsOpt ALL, .N .TableName ALL, .T 0x8000000000000000000000000000000000000, .N .TableName ALL, .N .GrantToOpt ALL, .T 0x4000000000000000000000000000000000000000000000000000000000000000000000000000, .T 0x20000000000000000000000000000000000000000000000000000000, .T 0x4, .N .Expr ALL, .T 0x8]]
  | .GrantTo => [[.T 0x20000000000000000000000000, .T 0x4000000000000000000000000000000000000000000000000000, .T 0x4, .N .ExprList ALL, .T 0x8]]
  | .CreateModel => [[.T 0x1000000000000000, .N .OrReplaceOpt ALL, .T 0x20000000000000000000000000000000000, .N .IfNotExistsOpt ALL, .N .TableName ALL, .N .TransformOpt ALL, .N .InputOpt ALL, .N .OutputOpt ALL, .N .RemoteOpt ALL, .N .OptionsOpt ALL, .N .ModelQueryOpt ALL]]
  | .Transform => [[.T 0x20000000000000000000000000000000000000000000000000000, .T 0x4, .N .SelectList ALL, .T 0x8]]
  | .Input => [[.T 0x20000000000000000000000000000, .N .PlainColumns ALL]]
  | .Output => [[.T 0x400000000000000000000000000000000000000, .N .PlainColumns ALL]]
  | .Remote => [[.T 0x20000000000000000000000000000000000000000000, .N .NamedConnection ALL]]
  | .ModelQuery => [[.T 0x20000000, .N .QueryN ALL], [.T 0x20000000, .T 0x4, .T 0x8000000000000000000000000000000000000000000000000000, .T 0x20000000, .T 0x4, .N .InQuery ALL, .T 0x8, .T 0x40, .T 0x4000000000000000000000000000000000000000000000000000000000000000000000000000, .T 0x20000000, .T 0x4, .N .InQuery ALL, .T 0x8, .T 0x8]]
  | .CreateReservation => [[.T 0x1000000000000000, .N .ReservationKind ALL, .N .TableName ALL, .N .ReservationBodyOpt ALL]]
  | .ReservationKind => [[.T 0x200000000000], [.T 0x400000000000000000000000000000000000000000000], [.T 0x200000000]]
  | .ReservationBody => [[.T 0x20000000, .T 0x2000000000000000000000000000000, .N .Expr ALL], [.N .Options ALL]]
  | .AlterSchema => [[.T 0x2000000, .T 0x400000000000000000000000000000000000000000000000, .N .IfExistsOpt ALL, .N .TableName ALL, .N .SchemaChange ALL]]
  | .SchemaChange => [[.T 0x2000000000000000000000000000000000000000000000000, .N .Collate ALL], [.T 0x2000000000000000000000000000000000000000000000000, .N .Options ALL], [.T 0x200000, .T 0x200000000000000000000000000000000000000000000, .N .TableName ALL, .N .OptionsOpt ALL], [.T 0x8000000000000000000, .T 0x200000000000000000000000000000000000000000000, .N .TableName ALL]]
  | .AlterTable => [[.T 0x2000000, .T 0x80000000000000000000000000000000000000000000000000, .N .IfExistsOpt ALL, .N .TableName ALL, .N .TableChange ALL]]
  | .TableChange => [[.T 0x2000000000000000000000000000000000000000000000000, .N .Options ALL], [.T 0x2000000000000000000000000000000000000000000000000, .N .Collate ALL], [.N .AddColumns ALL], [.N .AddConstraints ALL], [.T 0x40000000000000000000000000000000000000000000, .T 0x4000000000000000000000000000000000000000000000000000, .N .TableName ALL], [.N .RenameColumns ALL], [.N .DropParts ALL], [.N .AlterColumn ALL]]
  | .AddColumns => [[.N .AddColumn ALL, .T 0x40, .N .AddColumns ALL], [.N .AddColumn ALL]]
  | .AddColumn => [[.T 0x200000, .T 0x10000000000000, .N .IfNotExistsOpt ALL, .T 0xc00000000000000000099c933634c2f7f119d48100f45e86402223a8aa9f0e7675d282e00000, .N .SchemaType ALL, .N .ColumnRest ALL]]
  | .AddConstraints => [[.T 0x200000, .N .TableConstraint ALL, .T 0x40, .N .AddConstraints ALL], [.T 0x200000, .N .TableConstraint ALL]]
  | .RenameColumns => [[.N .RenameColumn ALL, .T 0x40, .N .RenameColumns ALL], [.N .RenameColumn ALL]]
  | .RenameColumn => [[.T 0x40000000000000000000000000000000000000000000, .T 0x10000000000000, .N .IfExistsOpt ALL, .T 0xc00000000000000000099c933634c2f7f119d48100f45e86402223a8aa9f0e7675d282e00000, .T 0x4000000000000000000000000000000000000000000000000000, .T 0xc00000000000000000099c933634c2f7f119d48100f45e86402223a8aa9f0e7675d282e00000]]
  | .DropParts => [[.N .DropPart ALL, .T 0x40, .N .DropParts ALL], [.N .DropPart ALL]]
  | .DropPart => [[.T 0x8000000000000000000, .T 0x10000000000000, .N .IfExistsOpt ALL, .T 0xc00000000000000000099c933634c2f7f119d48100f45e86402223a8aa9f0e7675d282e00000], [.T 0x8000000000000000000, .T 0x80000000000000, .N .IfExistsOpt ALL, .T 0xc00000000000000000099c933634c2f7f119d48100f45e86402223a8aa9f0e7675d282e00000], [.T 0x8000000000000000000, .T 0x40000000000000000000000000000000000000000, .T 0x4000000000000000000000000000000, .N .IfExistsOpt ALL]]
  | .AlterColumn => [[.T 0x2000000, .T 0x10000000000000, .N .IfExistsOpt ALL, .T 0xc00000000000000000099c933634c2f7f119d48100f45e86402223a8aa9f0e7675d282e00000, .N .ColumnChange ALL]]
  | .ColumnChange => [[.T 0x2000000000000000000000000000000000000000000000000, .N .Options ALL], [.T 0x2000000000000000000000000000000000000000000000000, .T 0x10000000000000000, .T 0x200000000000000000000000000000000000000000000000000000, .N .Type ALL, .N .ColumnCollateOpt ALL], [.T 0x2000000000000000000000000000000000000000000000000, .T 0x200000000000000000, .N .Expr ALL], [.T 0x8000000000000000000, .T 0x200000000000000000], [.T 0x8000000000000000000, .T 0x200000000000000000000000000000000000, .T 0x400000000000000000000000000000000000]]
  | .AlterView => [[.T 0x2000000, .N .MaterializedOpt ALL, .T 0x100000000000000000000000000000000000000000000000000000000, .N .IfExistsOpt ALL, .N .TableName ALL, .N .ViewChange ALL]]
  | .ViewChange => [[.T 0x2000000000000000000000000000000000000000000000000, .N .Options ALL], [.N .AlterColumn ALL]]
  | .AlterIndex => [[.T 0x2000000, .T 0x80000000000000000000000000000000000000000000000000000000, .T 0x4000000000000000000000000000000000000000000000000000000000000000000000000000, .N .IfExistsOpt ALL, .N .TableName ALL, .T 0x8000000000000000000000000000000000000, .N .TableName ALL, .T 0x4000000000000000000000000000000000000000000000000000000000000000000000000000]]
  | .AlterOther => [[.T 0x2000000, .T 0x80000000000000000000000000000000000000, .T 0x2000000000000000000000000000000000000000000000000, .N .Options ALL], [.T 0x2000000, .T 0x100000000000000000000000000000000000000000, .N .TableNameOpt ALL, .T 0x2000000000000000000000000000000000000000000000000, .N .Options ALL], [.T 0x2000000, .T 0x10000000000, .N .TableName ALL, .T 0x2000000000000000000000000000000000000000000000000, .N .Options ALL], [.T 0x2000000, .T 0x200000000000, .N .TableName ALL, .T 0x2000000000000000000000000000000000000000000000000, .N .Options ALL], [.T 0x2000000, .T 0x400000000000000000000000000000000000000000000, .N .TableName ALL, .T 0x2000000000000000000000000000000000000000000000000, .N .Options ALL], [.T 0x2000000, .T 0x20000000000000000000000000000000000, .N .IfExistsOpt ALL, .N .TableName ALL, .T 0x2000000000000000000000000000000000000000000000000, .N .Options ALL]]
  | .DropPolicy => [[.T 0x8000000000000000000, .T 0x80000000000000000000000000000000000000000000000, .T 0x4000000000000000000000000000000000000000000000000000000000000000000000000000, .T 0x4000000000000000000000000000000000000000000000000000000000000000000000000000, .N .IfExistsOpt ALL, .N .TableName ALL, .T 0x8000000000000000000000000000000000000, .N .TableName ALL], [.T 0x8000000000000000000, .T 0x1000000, .T 0x80000000000000000000000000000000000000000000000, .T 0x4000000000000000000000000000000000000000000000000000000000000000000000000000, .T 0x4000000000000000000000000000000000000000000000000000000000000000000000000000, .T 0x8000000000000000000000000000000000000, .N .TableName ALL]]
  | .Drop => [[.T 0x8000000000000000000, .N .DropKind ALL, .N .IfExistsOpt ALL, .N .TableName ALL, .N .DropModeOpt ALL], [.T 0x8000000000000000000, .T 0x800000000000000000000000000000000000000000000000, .T 0x4000000000000000000000000000000000000000000000000000000000000000000000000000, .N .IfExistsOpt ALL, .N .TableName ALL, .T 0x8000000000000000000000000000000000000, .N .TableName ALL]]
  | .DropKind => [[.T 0x20000000000000000000000, .T 0x400000000000000000000000000000000000000000000000], [.T 0x400000000000000000000000000000000000000000000000], [.T 0x20000000000000000000000, .T 0x80000000000000000000000000000000000000000000000000], [.T 0x80000000000000000000000000000000000000000000000000], [.T 0x4000000000000000000000000000000000, .T 0x100000000000000000000000000000000000000000000000000000000], [.T 0x100000000000000000000000000000000000000000000000000000000], [.T 0x80000000000000000000000000000000000000000000000000, .T 0x10000000000000000000000000], [.T 0x10000000000000000000000000], [.T 0x80000000000000000000000000000000000000000], [.T 0x20000000000000000000000000000000000], [.T 0x200000000000], [.T 0x400000000000000000000000000000000000000000000], [.T 0x200000000]]
  | .DropMode => [[.T 0x400000000000], [.T 0x1000000000000000000000000000000000000000000000]]
  | .Undrop => [[.T 0x800000000000000000000000000000000000000000000000000000, .T 0x400000000000000000000000000000000000000000000000, .N .IfNotExistsOpt ALL, .N .TableName ALL]]
  | .Grant => [[.T 0x20000000000000000000000000, .N .ExprList ALL, .T 0x8000000000000000000000000000000000000, .N .GrantKind ALL, .N .TableName ALL, .T 0x4000000000000000000000000000000000000000000000000000, .N .ExprList ALL]]
  | .Revoke => [[.T 0x8000000000000000000000000000000000000000000000, .N .ExprList ALL, .T 0x8000000000000000000000000000000000000, .N .GrantKind ALL, .N .TableName ALL, .T 0x4000000000000000000000000, .N .ExprList ALL]]
  | .GrantKind => [[.T 0x400000000000000000000000000000000000000000000000], [.T 0x80000000000000000000000000000000000000000000000000], [.T 0x100000000000000000000000000000000000000000000000000000000]]
  | .Declare => [[.T 0x100000000000000000, .N .Variables ALL, .N .Type ALL, .N .DefaultValueOpt ALL], [.T 0x100000000000000000, .N .Variables ALL, .N .DefaultValue ALL]]
  | .Variables => [[.T 0xc00000000000000000099c933634c2f7f119d48100f45e86402223a8aa9f0e7675d282e00000, .T 0x40, .N .Variables ALL], [.T 0xc00000000000000000099c933634c2f7f119d48100f45e86402223a8aa9f0e7675d282e00000]]
  | .DefaultValue => [[.T 0x200000000000000000, .N .Expr ALL]]
  | .Set => [[.T 0x2000000000000000000000000000000000000000000000000, .N .Expr ALL]]
  | .Execute => [[.T 0x2000000000000000000000, .T 0x4000000000000000000000000000000000000000000000000000000000000000000000000000, .N .Expr ALL, .N .IntoVarsOpt ALL, .N .UsingArgsOpt ALL]]
  | .IntoVars => [[.T 0x200000000000000000000000000000, .N .Variables ALL]]
  | .UsingArgs => [[.T 0x20000000000000000000000000000000000000000000000000000000, .N .AliasedList ALL]]
  | .Begin => [[.N .BeginBlock ALL]]
  | .BeginBlock => [[.T 0x1000000000, .N .Block ALL, .N .HandlerOpt ALL, .T 0x40000000000000000000]]
  | .Handler => [[.T 0x800000000000000000000, .T 0x200000000000000000000000000000000000000000000000000000000, .T 0x4000000000000000000000000000000000000000000000000000000000000000000000000000, .T 0x800000000000000000000000000000000000000000000000000, .N .Block ALL]]
  | .If => [[.T 0x800000000000000000000000000, .N .Expr ALL, .T 0x800000000000000000000000000000000000000000000000000, .N .Block ALL, .N .ElseIfs ALL, .N .ElseOpt ALL, .T 0x40000000000000000000, .T 0x800000000000000000000000000]]
  | .ElseIfs => [[], [.T 0x20000000000000000000, .N .Expr ALL, .T 0x800000000000000000000000000000000000000000000000000, .N .Block ALL, .N .ElseIfs ALL]]
  | .Else => [[.T 0x10000000000000000000, .N .Block ALL]]
  | .Case => [[.T 0x800000000000, .N .ExprOpt ALL, .N .CaseSteps ALL, .N .ElseOpt ALL, .T 0x40000000000000000000, .T 0x800000000000]]
  | .CaseSteps => [[.N .CaseStep ALL], [.N .CaseStep ALL, .N .CaseSteps ALL]]
  | .CaseStep => [[.T 0x200000000000000000000000000000000000000000000000000000000, .N .Expr ALL, .T 0x800000000000000000000000000000000000000000000000000, .N .Block ALL]]
  | .Loop => [[.T 0x1000000000000000000000000000000000, .N .Block ALL, .T 0x40000000000000000000, .T 0x1000000000000000000000000000000000]]
  | .Repeat => [[.T 0x80000000000000000000000000000000000000000000, .N .Block ALL, .T 0x8000000000000000000000000000000000000000000000000000000, .N .Expr ALL, .T 0x40000000000000000000, .T 0x80000000000000000000000000000000000000000000]]
  | .While => [[.T 0x800000000000000000000000000000000000000000000000000000000, .N .Expr ALL, .T 0x4000000000000000000000000000000000000000000000000000000000000000000000000000, .N .Block ALL, .T 0x40000000000000000000, .T 0x800000000000000000000000000000000000000000000000000000000]]
  | .For => [[.T 0x800000000000000000000000, .T 0xc000000000000000000000000000000000000000000000000000000000000000000000000000, .T 0x2000000000000000000000000000, .N .ParQ0 ALL, .T 0x4000000000000000000000000000000000000000000000000000000000000000000000000000, .N .Block ALL, .T 0x40000000000000000000, .T 0x800000000000000000000000]]
  | .ParQ0 => [[.T 0x4, .N .InQuery ALL, .T 0x8]]
  | .Transaction => [[.N .TxWord ALL, .T 0x10000000000000000000000000000000000000000000000000000], [.N .TxWord ALL]]
  | .TxWord => [[.T 0x1000000000], [.T 0x20000000000000], [.T 0x20000000000000000000000000000000000000000000000]]
  | .Raise => [[.T 0x1000000000000000000000000000000000000000000, .N .RaiseUsingOpt ALL]]
  | .RaiseUsing => [[.T 0x20000000000000000000000000000000000000000000000000000000, .N .Expr ALL]]
  | .Call => [[.T 0x100000000000, .N .Expr ALL]]
  | .Assert => [[.T 0x80000000, .N .Expr ALL, .N .AssertAsOpt ALL]]
  | .AssertAs => [[.T 0x20000000, .N .Expr ALL]]
  | .ExportData => [[.T 0x8000000000000000000000, .T 0x10000000000000000, .N .ConnectionOpt ALL, .N .Options ALL, .T 0x20000000, .N .Query ALL]]
  | .PipeExport => [[.T 0x8000000000000000000000, .T 0x10000000000000000, .N .ConnectionOpt ALL, .N .Options ALL, .T 0x20000000, .N .SelPipe ALL]]
  | .ExportModel => [[.T 0x8000000000000000000000, .T 0x20000000000000000000000000000000000, .N .TableName ALL, .N .OptionsOpt ALL]]
  | .Load => [[.T 0x400000000000000000000000000000000, .T 0x10000000000000000, .N .LoadMode ALL, .N .TableName ALL, .N .LoadPartitionsOpt ALL, .N .PlainColumnsOpt ALL, .N .PartitionByOpt ALL, .N .ClusterByOpt ALL, .N .OptionsOpt ALL, .T 0x4000000000000000000000000, .T 0x4000000000000000000000000000000000000000000000000000000000000000000000000000, .T 0x4, .N .ExprList ALL, .T 0x8, .N .PartitionColumnsOpt ALL, .N .NamedConnectionOpt ALL]]
  | .LoadMode => [[.T 0x200000000000000000000000000000], [.T 0x1000000000000000000000000000000000000000]]
  | .LoadPartitions => [[.T 0x1000000000000000000000000000000000000000, .T 0x4000000000000000000000000000000000000000, .T 0x4, .N .Expr ALL, .T 0x8], [.T 0x4000000000000000000000000000000000000000, .T 0x4, .N .Expr ALL, .T 0x8]]
  | .Query => [[.N .QueryN ALL], [.N .ParQ ALL]]
  | .QueryBody => [[.N .SelQ ALL], [.N .ParQ ALL]]
  | .With => [[.T 0x2000000000000000000000000000000000000000000000000000000000, .N .RecursiveOpt ALL, .N .Ctes ALL]]
  | .Ctes => [[.N .Cte ALL, .T 0x40, .N .Ctes ALL], [.N .Cte ALL]]
  | .Cte => [[.T 0xc00000000000000000099c933634c2f7f119d48100f45e86402223a8aa9f0e7675d282e00000, .T 0x20000000, .T 0x4, .N .InQuery ALL, .T 0x8]]
  | .SelQ => [[.N .SelectFrom ALL, .N .SelExcept ALL], [.N .SelectOnly ALL, .N .SelMethod ALL], [.N .SelectCore ALL, .N .SelRest ALL]]
  | .SelRest => [[.N .OrderByOpt ALL, .N .LimitOpt ALL], [.N .SetOpU ALL, .N .SelQ ALL], [.N .SetOpU ALL, .T 0x4, .N .InQuery ALL, .T 0x8, .N .ParRest1 ALL]]
  | .SelExcept => [[.N .SetOpE ALL, .N .SelQ ALL], [.N .SetOpE ALL, .T 0x4, .N .InQuery ALL, .T 0x8, .N .ParRest1 ALL]]
  | .SelMethod => [[.N .SetOpM ALL, .N .SelQ ALL], [.N .SetOpM ALL, .T 0x4, .N .InQuery ALL, .T 0x8, .N .ParRest1 ALL]]
  | .ParRest1 => [[], [.N .SetOp ALL, .N .SelQ ALL], [.N .SetOp ALL, .T 0x4, .N .InQuery ALL, .T 0x8, .N .ParRest1 ALL]]
  | .ParQ => [[.T 0x4, .N .InQuery ALL, .T 0x8, .N .ParRest ALL]]
  | .ParRest => [[.N .OrderByOpt ALL, .N .LimitOpt ALL], [.N .SetOp ALL, .N .SelQ ALL], [.N .SetOp ALL, .T 0x4, .N .InQuery ALL, .T 0x8, .N .ParRest ALL]]
  | .SetOp => [[.N .SetOpU ALL], [.N .SetOpE ALL], [.N .SetOpM ALL]]
  | .SetOpU => [[.N .SetKind ALL, .N .SetNameOpt ALL]]
  | .SetOpE => [[.T 0x400000000000000000000, .T 0x4000000000000000000, .N .SetNameOpt ALL]]
  | .SetOpM => [[.N .SetMethod ALL, .N .SetKind ALL, .N .SetNameOpt ALL]]
  | .SetMethod => [[.T 0x8000000000000000000000000000], [.T 0x8000000000000000000000000], [.T 0x8000000000000000000000000, .T 0x200000000000000000000000000000000000000], [.T 0x80000000000000000000000000000000], [.T 0x80000000000000000000000000000000, .T 0x200000000000000000000000000000000000000], [.T 0x200000000000000000000000000000000000000]]
  | .SetKind => [[.T 0x1000000000000000000000000000000000000000000000000000000, .T 0x1000000], [.T 0x1000000000000000000000000000000000000000000000000000000, .T 0x4000000000000000000], [.T 0x80000000000000000000000000000, .T 0x4000000000000000000]]
  | .SetName => [[.T 0x80000000000, .T 0xc00000000000000000099c933634c2f7f119d48100f45e86402223a8aa9f0e7675d282e00000], [.T 0x80000000000, .T 0xc00000000000000000099c933634c2f7f119d48100f45e86402223a8aa9f0e7675d282e00000, .T 0x8000000000000000000000000000000000000, .T 0x4, .N .ExprList ALL, .T 0x8], [.T 0x20000000000000000000000000000000000000000000000000, .N .Corresponding ALL], [.N .Corresponding ALL]]
  | .Corresponding => [[.T 0x800000000000000, .T 0x80000000000, .T 0x4, .N .ExprList ALL, .T 0x8], [.T 0x800000000000000]]
  | .OrderBy => [[.T 0x40000000000000000000000000000000000000, .T 0x80000000000, .N .OrderItems ALL]]
  | .OrderItems => [[.N .Expr ALL, .N .OrdOpt ALL, .T 0x40, .N .OrderItems ALL], [.N .Expr ALL, .N .OrdOpt ALL]]
  | .Ord => [[.T 0x40000000], [.T 0x1000000000000000000], [.T 0x40000000, .N .NullOrder ALL], [.T 0x1000000000000000000, .N .NullOrder ALL], [.N .NullOrder ALL]]
  | .NullOrder => [[.T 0x800000000000000000000000000000000000, .T 0x200000000000000000000000], [.T 0x800000000000000000000000000000000000, .T 0x10000000000000000000000000000000]]
  | .Limit => [[.T 0x200000000000000000000000000000000, .N .Expr ALL], [.T 0x200000000000000000000000000000000, .N .Expr ALL, .T 0x4000000000000000000000000000000000000, .N .Expr ALL]]
  | .SelectCore => [[.N .SelectFrom ALL], [.N .SelectOnly ALL]]
  | .SelectOnly => [[.T 0x1000000000000000000000000000000000000000000000000, .N .PrivacyOpt ALL, .N .SelModOpt ALL, .N .SelAsOpt ALL, .N .SelectList ALL]]
  | .Privacy => [[.T 0x2000000000000000000000000000000000000000000000000000000000, .T 0x4000000000000000000000000000000000000000000000000000000000000000000000000000, .N .OptionsOpt ALL]]
  | .SelectFrom => [[.T 0x1000000000000000000000000000000000000000000000000, .N .PrivacyOpt ALL, .N .SelModOpt ALL, .N .SelAsOpt ALL, .N .SelectList ALL, .T 0x40, .N .FromClause ALL, .N .Clauses ALL], [.T 0x1000000000000000000000000000000000000000000000000, .N .PrivacyOpt ALL, .N .SelModOpt ALL, .N .SelAsOpt ALL, .N .SelectList ALL, .N .FromClause ALL, .N .Clauses ALL]]
  | .Clauses => [[.N .WhereOpt ALL, .N .GroupByOpt ALL, .N .HavingOpt ALL, .N .QualifyOpt ALL, .N .WindowOpt ALL]]
  | .SelMod => [[.T 0x1000000], [.T 0x4000000000000000000]]
  | .SelAs => [[.T 0x20000000, .T 0x40000000000000000000000000000000000000000000000000], [.T 0x20000000, .T 0x4000000000000000000000000000000000000000000000000000000000000000000000000000]]
  | .SelectList => [[.N .SelectItem ALL, .T 0x40, .N .SelectList ALL], [.N .SelectItem ALL]]
  | .SelectItem => [[.T 0x2000000000000000000000000000000000000000000000000000000000, .T 0x4, .N .WithArgs ALL, .T 0x8, .N .AliasOpt ALL], [.N .Expr ALL, .N .AliasOpt ALL], [.T 0x10, .N .StarModOpt ALL], [.N .DotBase ALL, .T 0x100, .T 0x10, .N .StarModOpt ALL]]
  | .WithArgs => [[.T 0xc000000000000000000000000000000000000000000000000000000000000000000000000000, .T 0x20000000, .N .Expr ALL, .T 0x40, .N .WithArgs ALL], [.T 0xc000000000000000000000000000000000000000000000000000000000000000000000000000, .T 0x20000000, .N .Expr ALL, .T 0x40, .N .Expr ALL]]
  | .DotBase => [[.T 0xc00000000000000000099c933634c2f7f119d48100f45e86402223a8aa9f0e7675d282e00000, .T 0x4, .N .CallArgs ALL, .T 0x8, .N .Post ALL], [.T 0xc00000000000000000099c933634c2f7f119d48100f45e86402223a8aa9f0e7675d282e00000, .N .Post ALL], [.T 0x4, .N .InQueryE ALL, .T 0x8, .N .Post ALL], [.T 0x4, .N .ExprList ALL, .T 0x8, .N .Post ALL]]
  | .StarMod => [[.T 0x400000000000000000000, .T 0x4, .N .ExprList ALL, .T 0x8], [.T 0x100000000000000000000000000000000000000000000, .T 0x4, .N .AliasedList ALL, .T 0x8]]
  | .Alias => [[.T 0x20000000, .T 0xc00000000000000000099c933634c2f7f119d48100f45e86402223a8aa9f0e7675d282e00000], [.T 0xc000000000000000000000000000000000000000000000000000000000000000000000000000]]
  | .AliasedList => [[.N .Expr ALL, .N .AliasOpt ALL, .T 0x40, .N .AliasedList ALL], [.N .Expr ALL, .N .AliasOpt ALL]]
  | .FromClause => [[.T 0x4000000000000000000000000, .N .TableExpr ALL]]
  | .Where => [[.T 0x400000000000000000000000000000000000000000000000000000000, .N .Expr ALL]]
  | .GroupBy => [[.T 0x40000000000000000000000000, .T 0x80000000000, .N .GroupItems ALL]]
  | .GroupItems => [[.N .ExprList ALL], [.T 0x1000000], [.T 0x40000000000000000000000000000000000000000000000, .T 0x4, .N .ExprList ALL, .T 0x8], [.T 0x4000000000000000, .T 0x4, .N .ExprList ALL, .T 0x8], [.T 0x80000000000000000000000000, .T 0x4000000000000000000000000000000000000000000000000000000000000000000000000000, .T 0x4, .N .ExprList ALL, .T 0x8]]
  | .Having => [[.T 0x400000000000000000000000000, .N .Expr ALL]]
  | .Qualify => [[.T 0x400000000000000000000000000000000000000000, .N .Expr ALL]]
  | .Window => [[.T 0x1000000000000000000000000000000000000000000000000000000000, .N .WindowDefs ALL]]
  | .WindowDefs => [[.N .WindowDef ALL, .T 0x40, .N .WindowDefs ALL], [.N .WindowDef ALL]]
  | .WindowDef => [[.T 0xc000000000000000000000000000000000000000000000000000000000000000000000000000, .T 0x20000000, .N .WindowSpec ALL]]
  | .WindowSpec => [[.T 0xc000000000000000000000000000000000000000000000000000000000000000000000000000], [.T 0x4, .N .IdOpt ALL, .N .PartitionByOpt ALL, .N .OrderByOpt ALL, .N .FrameOpt ALL, .T 0x8]]
  | .PartitionBy => [[.T 0x2000000000000000000000000000000000000000, .T 0x80000000000, .N .ExprList ALL]]
  | .Frame => [[.N .FrameUnit ALL, .T 0x2000000000, .N .FrameBound ALL, .T 0x4000000, .N .FrameBound ALL], [.N .FrameUnit ALL, .N .FrameBound ALL]]
  | .FrameUnit => [[.T 0x100000000000000000000000000000000000000000000000], [.T 0x2000000000000000000000000000000000000000000]]
  | .FrameBound => [[.T 0x400000000000000000000000000000000000000000000000000000, .T 0x20000000000000000000000000000000000000000], [.T 0x400000000000000000000000000000000000000000000000000000, .T 0x400000000000000000000000], [.T 0x8000000000000000, .T 0x80000000000000000000000000000000000000000000000], [.T 0x10000000000000000000000000000000000000000000000000000000000000000000000000000, .T 0x20000000000000000000000000000000000000000], [.T 0x10000000000000000000000000000000000000000000000000000000000000000000000000000, .T 0x400000000000000000000000]]
  | .InQuery => [[.N .InQueryN ALL], [.N .ParPipe ALL], [.N .ParQ ALL]]
  | .InQueryN => [[.N .FromHead ALL, .N .Pipes ALL], [.N .FromHead ALL], [.N .InQueryE ALL]]
  | .InQueryE => [[.N .SelPipeN ALL], [.N .QueryN ALL]]
  | .PipeQuery => [[.N .SelPipe ALL], [.N .FromHead ALL, .N .Pipes ALL], [.N .FromHead ALL]]
  | .SelPipe => [[.N .SelPipeN ALL], [.N .ParPipe ALL]]
  | .SelPipeN => [[.N .SelHeadN ALL, .N .Pipes ALL], [.N .WithPipe ALL]]
  | .ParPipe => [[.T 0x4, .N .InQuery ALL, .T 0x8, .N .Pipes ALL]]
  | .WithPipe => [[.N .With ALL, .N .SelHeadN ALL, .N .Pipes ALL], [.N .With ALL, .N .ParPipe ALL], [.N .With ALL, .N .FromHead ALL, .N .Pipes ALL], [.N .With ALL, .N .FromHead ALL]]
  | .SelHeadN => [[.T 0x1000000000000000000000000000000000000000000000000, .N .PrivacyOpt ALL, .N .SelModOpt ALL, .N .SelAsOpt ALL, .N .SelectList ALL, .N .FromHead ALL, .N .Clauses ALL, .N .OrderByOpt ALL, .N .LimitOpt ALL], [.N .SelectOnly ALL, .N .OrderByOpt ALL, .N .LimitOpt ALL]]
  | .FromHead => [[.T 0x4000000000000000000000000, .N .TableExprP ALL]]
  | .TableExprP => [[.N .TablePrimP ALL, .N .JoinsP ALL]]
  | .JoinsP => [[], [.T 0x40, .N .TablePrimP ALL, .N .JoinsP ALL], [.N .JoinKind ALL, .N .TablePrimP ALL, .N .JoinCondOpt ALL, .N .JoinsP ALL]]
  | .TablePrimP => [[.N .TableName ALL, .N .AliasOpt ALL, .N .SystemTimeOpt ALL, .N .TableOpOpt ALL, .N .SampleOpt ALL], [.T 0x4, .N .InQueryN ALL, .T 0x8, .N .Alias ALL, .N .TableOpOpt ALL, .N .SampleOpt ALL], [.T 0x4, .N .TableExprN ALL, .T 0x8], [.T 0x2000000000000000000000000000000000000000000000000000000, .T 0x4, .N .Expr ALL, .T 0x8, .N .AliasOpt ALL, .N .WithOffsetOpt ALL], [.N .TvfName ALL, .T 0x4, .N .TableArgsOpt ALL, .T 0x8, .N .AliasOpt ALL]]
  | .Pipes => [[.T 0x100000000000000000000000000000000000000000000000000000000000, .N .With ALL, .N .Pipes ALL], [.T 0x100000000000000000000000000000000000000000000000000000000000, .N .PipeOp ALL, .N .Pipes ALL], [.T 0x100000000000000000000000000000000000000000000000000000000000, .N .PipeOp ALL]]
  | .PipeOp => [[.N .PipeWord ALL, .N .AliasedList ALL], [.T 0x40000000000000000000000000000000000000, .T 0x80000000000, .N .OrderItems ALL], [.T 0x1000000000000000000000000000000000000000000000000, .N .SelModOpt ALL, .N .SelAsOpt ALL, .N .SelectList ALL, .N .WindowOpt ALL], [.T 0x800000, .N .AliasedList ALL, .N .PipeGroupByOpt ALL], [.N .SetOp ALL, .N .PipeInputs ALL], [.N .PipeJoin ALL], [.T 0x200000000000000000000000000000000, .N .Expr ALL], [.T 0x200000000000000000000000000000000, .N .Expr ALL, .T 0x4000000000000000000000000000000000000, .N .Expr ALL], [.N .Sample ALL], [.N .Pivot ALL], [.N .Unpivot ALL], [.N .MatchRecognize ALL], [.T 0x4000000000000000000]]
  | .PipeWord => [[.T 0x10000000000000000000000], [.T 0x2000000000000000000000000000000000000000000000000], [.T 0x8000000000000000000], [.T 0x40000000000000000000000000000000000000000000], [.T 0x20000000], [.T 0x400000000000000000000000000000000000000000000000000000000], [.T 0x100000000000]]
  | .PipeGroupBy => [[.T 0x40000000000000000000000000, .T 0x80000000000, .N .PipeGroupItems ALL]]
  | .PipeGroupItems => [[.N .AliasedList ALL], [.T 0x1000000], [.T 0x40000000000000000000000000000000000000000000000, .T 0x4, .N .ExprList ALL, .T 0x8], [.T 0x4000000000000000, .T 0x4, .N .ExprList ALL, .T 0x8], [.T 0x80000000000000000000000000, .T 0x4000000000000000000000000000000000000000000000000000000000000000000000000000, .T 0x4, .N .ExprList ALL, .T 0x8]]
  | .PipeInputs => [[.T 0x4, .N .InQueryE ALL, .T 0x8, .T 0x40, .N .PipeInputs ALL], [.T 0x4, .N .InQueryE ALL, .T 0x8]]
  | .PipeJoin => [[.N .JoinKind ALL, .N .TablePrimP ALL, .N .JoinCondOpt ALL]]
  | .TableExpr => [[.N .TablePrim ALL, .N .Joins ALL]]
  | .Joins => [[], [.T 0x40, .N .TablePrim ALL, .N .Joins ALL], [.N .JoinKind ALL, .N .TablePrim ALL, .N .JoinCondOpt ALL, .N .Joins ALL]]
  | .JoinKind => [[.T 0x1000000000000000000000000000000], [.T 0x8000000000000000000000000000, .T 0x1000000000000000000000000000000], [.T 0x2000000000000000, .T 0x1000000000000000000000000000000], [.T 0x80000000000000000000000000000000, .T 0x1000000000000000000000000000000], [.T 0x80000000000000000000000000000000, .T 0x200000000000000000000000000000000000000, .T 0x1000000000000000000000000000000], [.T 0x10000000000000000000000000000000000000000000000, .T 0x1000000000000000000000000000000], [.T 0x10000000000000000000000000000000000000000000000, .T 0x200000000000000000000000000000000000000, .T 0x1000000000000000000000000000000], [.T 0x8000000000000000000000000, .T 0x1000000000000000000000000000000], [.T 0x8000000000000000000000000, .T 0x200000000000000000000000000000000000000, .T 0x1000000000000000000000000000000]]
  | .JoinCond => [[.T 0x8000000000000000000000000000000000000, .N .Expr ALL], [.T 0x20000000000000000000000000000000000000000000000000000000, .T 0x4, .N .ExprList ALL, .T 0x8]]
  | .TablePrim => [[.N .TableName ALL, .N .AliasOpt ALL, .N .SystemTimeOpt ALL, .N .TableOpOpt ALL, .N .SampleOpt ALL], [.T 0x4, .N .InQueryN ALL, .T 0x8, .N .AliasOpt ALL, .N .TableOpOpt ALL, .N .SampleOpt ALL], [.T 0x4, .N .TableExprN ALL, .T 0x8], [.T 0x2000000000000000000000000000000000000000000000000000000, .T 0x4, .N .Expr ALL, .T 0x8, .N .AliasOpt ALL, .N .WithOffsetOpt ALL], [.N .TvfName ALL, .T 0x4, .N .TableArgsOpt ALL, .T 0x8, .N .AliasOpt ALL]]
  | .QueryN => [[.N .With ALL, .N .QueryBody ALL], [.N .SelQ ALL]]
  | .TableExprN => [[.N .TableName ALL, .N .AliasOpt ALL, .N .SystemTimeOpt ALL, .N .TableOpOpt ALL, .N .SampleOpt ALL, .N .Joins ALL]]
  | .TableOp => [[.N .Pivot ALL], [.N .Unpivot ALL], [.N .MatchRecognize ALL]]
  | .Pivot => [[.T 0x10000000000000000000000000000000000000000, .N .PivotConfig ALL, .N .AliasOpt ALL]]
  | .PivotConfig => [[.T 0x4, .N .AliasedList ALL, .T 0x800000000000000000000000, .T 0xc00000000000000000099c933634c2f7f119d48100f45e86402223a8aa9f0e7675d282e00000, .N .PivotIn ALL, .T 0x8]]
  | .PivotIn => [[.T 0x2000000000000000000000000000, .T 0x4, .N .AliasedList ALL, .T 0x8]]
  | .Unpivot => [[.T 0x4000000000000000000000000000000000000000000000000000000, .N .UnpivotNullsOpt ALL, .N .UnpivotConfig ALL, .N .AliasOpt ALL]]
  | .UnpivotNulls => [[.T 0x4000000000000000000000000000, .T 0x800000000000000000000000000000000000], [.T 0x1000000000000000000000, .T 0x800000000000000000000000000000000000]]
  | .UnpivotConfig => [[.T 0x4, .N .UnpivotValues ALL, .T 0x800000000000000000000000, .T 0xc000000000000000000000000000000000000000000000000000000000000000000000000000, .T 0x2000000000000000000000000000, .T 0x4, .N .UnpivotItems ALL, .T 0x8, .T 0x8]]
  | .UnpivotValues => [[.T 0xc000000000000000000000000000000000000000000000000000000000000000000000000000], [.T 0x4, .N .ExprList ALL, .T 0x8]]
  | .UnpivotItems => [[.N .UnpivotItem ALL, .T 0x40, .N .UnpivotItems ALL], [.N .UnpivotItem ALL]]
  | .UnpivotItem => [[.N .UnpivotValues ALL, .N .RowAliasOpt ALL]]
  | .RowAlias => [[.T 0x20000000, .T 0x20000000000000000000000000000000000000000000000000000000000000000000000000000], [.T 0x20000000, .T 0x10000000000000000000000000000000000000000000000000000000000000000000000000000], [.T 0x20000000000000000000000000000000000000000000000000000000000000000000000000000], [.T 0x10000000000000000000000000000000000000000000000000000000000000000000000000000]]
  | .MatchRecognize => [[.T 0x2000000000000000000000000000000000, .N .MatchConfig ALL, .N .AliasOpt ALL]]
  | .MatchConfig => [[.T 0x4, .N .PartitionByOpt ALL, .N .OrderBy ALL, .N .MeasuresOpt ALL, .N .AfterMatchOpt ALL, .T 0x8000000000000000000000000000000000000000, .N .PatternGroup ALL, .N .Define ALL, .N .OptionsOpt ALL, .T 0x8]]
  | .Measures => [[.T 0x8000000000000000000000000000000000, .N .NamedExprs ALL]]
  | .NamedExprs => [[.N .Expr ALL, .T 0x20000000, .T 0xc00000000000000000099c933634c2f7f119d48100f45e86402223a8aa9f0e7675d282e00000, .T 0x40, .N .NamedExprs ALL], [.N .Expr ALL, .T 0x20000000, .T 0xc00000000000000000099c933634c2f7f119d48100f45e86402223a8aa9f0e7675d282e00000]]
  | .AfterMatch => [[.T 0x400000, .T 0x4000000000000000000000000000000000000000000000000000000000000000000000000000, .T 0x4000000000000000000000000000000000000000000000000000000000000000000000000000, .T 0x4000000000000000000000000000000000000000000000000000000000000000000000000000, .T 0x10000000000000000000000000000000, .T 0x80000000000000000000000000000000000000000000000], [.T 0x400000, .T 0x4000000000000000000000000000000000000000000000000000000000000000000000000000, .T 0x4000000000000000000000000000000000000000000000000000000000000000000000000000, .T 0x4000000000000000000000000000000000000000000000000000, .T 0x4000000000000000000000000000000000000000000000000000000000000000000000000000, .T 0x80000000000000000000000000000000000000000000000]]
  | .Define => [[.T 0x400000000000000000, .N .Definitions ALL]]
  | .Definitions => [[.T 0xc000000000000000000000000000000000000000000000000000000000000000000000000000, .T 0x20000000, .N .Expr ALL, .T 0x40, .N .Definitions ALL], [.T 0xc000000000000000000000000000000000000000000000000000000000000000000000000000, .T 0x20000000, .N .Expr ALL]]
  | .PatternGroup => [[.T 0x4, .N .PatternSeq ALL, .N .PatternOrs ALL, .T 0x8]]
  | .PatternSeq => [[], [.N .PatternUnit ALL, .N .PatternSeq ALL]]
  | .PatternOrs => [[], [.T 0x80000000000000000000000000000000000000000000000000000000000, .N .PatternSeq ALL, .N .PatternOrs ALL]]
  | .PatternUnit => [[.T 0xc000000000000000000000000000000000000000000000000000000000000000000000000000, .N .Suffixes ALL], [.N .PatternGroup ALL, .N .Suffixes ALL]]
  | .Suffixes => [[], [.N .Suffix ALL, .N .Suffixes ALL]]
  | .Suffix => [[.T 0x100000], [.T 0x20], [.T 0x10]]
  | .TvfName => [[.T 0xc000000000000000000000000000000000000000000000000000000000000000000000000000, .N .TvfRest ALL]]
  | .TvfRest => [[], [.T 0x100, .T 0xc000000000000000000000000000000000000000000000000000000000000000000000000000, .N .TvfRest ALL]]
  | .TableName => [[.T 0xc00000000000000000099c933634c2f7f119d48100f45e86402223a8aa9f0e7675d282e00000, .N .NameRest ALL]]
  | .NameRest => [[], [.T 0x100, .T 0xc00000000000000000099c933634c2f7f119d48100f45e86402223a8aa9f0e7675d282e00000, .N .NameRest ALL]]
  | .SystemTime => [[.T 0x800000000000000000000000, .T 0x4000000000000000000000000000000000000000000000000000000000000000000000000000, .T 0x20000000, .T 0x2000000000000000000000000000000000000, .N .Expr ALL]]
  | .Sample => [[.T 0x100000000000000000000000000000000000000000000000000, .T 0x4000000000000000000000000000000000000000000000000000000000000000000000000000, .T 0x4, .N .Expr ALL, .T 0x4000000000000000000000000000000000000000000000000000000000000000000000000000, .T 0x8]]
  | .WithOffset => [[.T 0x2000000000000000000000000000000000000000000000000000000000, .T 0x4000000000000000000000000000000000000], [.T 0x2000000000000000000000000000000000000000000000000000000000, .T 0x4000000000000000000000000000000000000, .N .Alias ALL]]
  | .TableArgs => [[.N .TableArg ALL, .T 0x40, .N .TableArgs ALL], [.N .TableArg ALL]]
  | .TableArg => [[.T 0x80000000000000000000000000000000000000000000000000, .N .TableName ALL], [.T 0x20000000000000000000000000000000000, .N .TableName ALL], [.N .Expr ALL]]
  | .ExprList => [[.N .Expr ALL, .T 0x40, .N .ExprList ALL], [.N .Expr ALL]]
  | .Expr => [[.N .NotUnary ALL, .N .Tail ALL]]
  | .NotUnary => [[.T 0x200000000000000000000000000000000000, .N .NotUnary ALL], [.N .Unary ALL]]
  | .Unary => [[.N .Primary ALL], [.T 0x80, .N .Unary ALL], [.T 0x20, .N .Unary ALL], [.T 0x400000000000000000000000000000000000000000000000000000000000, .N .Unary ALL]]
  | .Tail => [[], [.N .OpChunk ALL, .N .Tail ALL]]
  | .OpChunk => [[.N .ArithOp ALL, .N .Unary ALL], [.N .CompOp ALL, .N .Unary ALL], [.T 0x400000000000000000000000000000, .N .NotOpt ALL, .N .IsWhat ALL], [.T 0x400000000000000000000000000000, .N .NotOpt ALL, .T 0x4000000000000000000, .T 0x4000000000000000000000000, .N .Unary ALL], [.N .InOp ALL, .T 0x4, .N .ExprList ALL, .T 0x8], [.N .InOp ALL, .T 0x4, .N .InQueryE ALL, .T 0x8], [.N .InOp ALL, .T 0x2000000000000000000000000000000000000000000000000000000, .T 0x4, .N .Expr ALL, .T 0x8], [.N .BetweenOp ALL, .N .Unary ALL, .N .TailB ALL, .T 0x4000000, .N .Unary ALL], [.N .LikeOp ALL, .N .Unary ALL], [.N .LogicOp ALL, .N .NotUnary ALL]]
  | .InOp => [[.T 0x2000000000000000000000000000], [.T 0x200000000000000000000000000000000000, .T 0x2000000000000000000000000000]]
  | .BetweenOp => [[.T 0x2000000000], [.T 0x200000000000000000000000000000000000, .T 0x2000000000]]
  | .LikeOp => [[.T 0x100000000000000000000000000000000], [.T 0x200000000000000000000000000000000000, .T 0x100000000000000000000000000000000]]
  | .IsWhat => [[.T 0x400000000000000000000000000000000000], [.T 0x80000000000000000000000000000000000000000000000000000], [.T 0x80000000000000000000000]]
  | .ArithOp => [[.T 0x10], [.T 0x200], [.T 0x200000000000000000000000000000000000000000000000000000000000], [.T 0x20], [.T 0x80], [.T 0x1000], [.T 0x80000], [.T 0x2], [.T 0x20000000000000000000000000000000000000000000000000000000000], [.T 0x80000000000000000000000000000000000000000000000000000000000]]
  | .CompOp => [[.T 0x8000], [.T 0x800], [.T 0x20000], [.T 0x2000], [.T 0x40000], [.T 0x1], [.T 0x4000]]
  | .LogicOp => [[.T 0x4000000], [.T 0x20000000000000000000000000000000000000]]
  | .TailB => [[], [.N .ArithOp ALL, .N .Unary ALL, .N .TailB ALL]]
  | .Primary => [[.T 0xc00000000000000000099c933634c2f7f119d48100f45e86402223a8aa9f0e7675d282e00000, .T 0x4, .N .CallArgs ALL, .T 0x8, .N .OverOpt ALL, .N .Post ALL], [.T 0xc00000000000000000099c933634c2f7f119d48100f45e86402223a8aa9f0e7675d282e00000, .N .Post ALL], [.T 0x10000000000000000000000000000000000000000000000000000000000000000000000000000], [.T 0x20000000000000000000000000000000000000000000000000000000000000000000000000000], [.T 0x40000000000000000000000000000000000000000000000000000000000000000000000100000, .N .Post ALL], [.T 0x80000000000000000000000000000000000000000000000000000], [.T 0x80000000000000000000000], [.T 0x400000000000000000000000000000000000], [.N .TypedLit ALL], [.T 0x2000000000000000000000000000000000000000000, .T 0x800, .N .Type ALL, .T 0x20000, .T 0x20000000000000000000000000000000000000000000000000000000000000000000000000000], [.T 0x4, .N .InQueryE ALL, .T 0x8, .N .Post ALL], [.T 0x4, .T 0x8, .N .Post ALL], [.T 0x4, .N .ExprList ALL, .T 0x8, .N .Post ALL], [.T 0x8000000000000000000000000000000000000000000000000000000000, .T 0x10000000000000000000000000000000000000000000000000000000000, .N .Post ALL], [.T 0x8000000000000000000000000000000000000000000000000000000000, .N .ExprList ALL, .T 0x10000000000000000000000000000000000000000000000000000000000, .N .Post ALL], [.T 0x10000000, .T 0x4, .N .InQueryE ALL, .T 0x8, .N .Post ALL], [.T 0x10000000, .T 0x800, .N .Type ALL, .T 0x20000, .T 0x8000000000000000000000000000000000000000000000000000000000, .N .ExprList ALL, .T 0x10000000000000000000000000000000000000000000000000000000000, .N .Post ALL], [.T 0x10000000, .T 0x800, .N .Type ALL, .T 0x20000, .T 0x8000000000000000000000000000000000000000000000000000000000, .T 0x10000000000000000000000000000000000000000000000000000000000, .N .Post ALL], [.T 0x10000000, .T 0x8000000000000000000000000000000000000000000000000000000000, .N .ExprList ALL, .T 0x10000000000000000000000000000000000000000000000000000000000, .N .Post ALL], [.T 0x10000000, .T 0x8000000000000000000000000000000000000000000000000000000000, .T 0x10000000000000000000000000000000000000000000000000000000000, .N .Post ALL], [.T 0x40000000000000000000000000000000000000000000000000, .T 0x4, .T 0x8, .N .Post ALL], [.T 0x40000000000000000000000000000000000000000000000000, .T 0x4, .N .AliasedList ALL, .T 0x8, .N .Post ALL], [.T 0x40000000000000000000000000000000000000000000000000, .T 0x800, .N .FieldList ALL, .T 0x20000, .T 0x4, .N .AliasedList ALL, .T 0x8, .N .Post ALL], [.T 0x800000000000, .N .ExprOpt ALL, .N .CaseArms ALL, .N .CaseElseOpt ALL, .T 0x40000000000000000000], [.T 0x1000000000000, .T 0x4, .N .Expr ALL, .T 0x20000000, .N .Type ALL, .N .CastFormatOpt ALL, .T 0x8, .N .Post ALL], [.T 0x200000000000000000000000000000000000000000000000, .T 0x4, .N .Expr ALL, .T 0x20000000, .N .Type ALL, .N .CastFormatOpt ALL, .T 0x8, .N .Post ALL], [.T 0x40000000000000000000000, .T 0x4, .N .Expr ALL, .T 0x4000000000000000000000000, .N .Expr ALL, .N .AtTimeZoneOpt ALL, .T 0x8, .N .Post ALL], [.T 0x4000000000000000000000, .T 0x4, .N .InQueryE ALL, .T 0x8], [.N .FuncWord ALL, .T 0x4, .N .CallArgs ALL, .T 0x8, .N .Post ALL], [.T 0x100000000000000000000000000000, .N .Expr ALL, .T 0xc000000000000000000000000000000000000000000000000000000000000000000000000000], [.T 0x100000000000000000000000000000, .N .Expr ALL, .T 0xc000000000000000000000000000000000000000000000000000000000000000000000000000, .T 0x4000000000000000000000000000000000000000000000000000, .T 0xc000000000000000000000000000000000000000000000000000000000000000000000000000]]
  | .FuncWord => [[.T 0x800000000000000000000000000], [.T 0x80000000000000000000000000000000], [.T 0x10000000000000000000000000000000000000000000000]]
  | .TypedLit => [[.N .DateWord ALL, .T 0x20000000000000000000000000000000000000000000000000000000000000000000000000000], [.N .RawWord ALL, .T 0x20000000000000000000000000000000000000000000000000000000000000000000000000000], [.N .DateWord ALL, .N .RawWord ALL, .T 0x20000000000000000000000000000000000000000000000000000000000000000000000000000]]
  | .DateWord => [[.T 0x20000000000000000], [.T 0x1000000000000000000000000000000000000000000000000000], [.T 0x40000000000000000], [.T 0x2000000000000000000000000000000000000000000000000000], [.T 0x1000000000000000000000000000000000000], [.T 0x8000000000], [.T 0x80000000000000000], [.T 0x4000000000], [.T 0x2000000000000000000000000000000]]
  | .RawWord => [[.T 0x800000000], [.T 0x800000000000000000000000000000000000000000], [.T 0x20000000000], [.T 0x4000000000000000000000000000000000000000000]]
  | .Post => [[], [.N .PostStep ALL, .N .Post ALL]]
  | .PostStep => [[.T 0x8000000000000000000000000000000000000000000000000000000000, .N .Expr ALL, .T 0x10000000000000000000000000000000000000000000000000000000000], [.T 0x100, .T 0xc000000000000000007fffffffffffffffffffffffffffffffffffffffffffffffffffe00000], [.T 0x100, .T 0xc000000000000000000000000000000000000000000000000000000000000000000000000000, .T 0x4, .N .CallArgs ALL, .T 0x8, .N .OverOpt ALL]]
  | .CallArgs => [[], [.T 0x10], [.N .DistinctOpt ALL, .N .Args ALL, .N .AggMods ALL]]
  | .Args => [[.N .Arg ALL, .T 0x40, .N .Args ALL], [.N .Arg ALL]]
  | .Arg => [[.N .Expr ALL], [.T 0xc000000000000000000000000000000000000000000000000000000000000000000000000000, .T 0x10000, .N .Expr ALL]]
  | .AggMods => [[.N .NullsModOpt ALL, .N .AggHaving ALL], [.N .NullsModOpt ALL, .N .OrderByOpt ALL, .N .AggLimitOpt ALL]]
  | .NullsMod => [[.T 0x800000000000000000000000000000000000000000000, .T 0x800000000000000000000000000000000000], [.T 0x1000000000000000000000000000, .T 0x800000000000000000000000000000000000]]
  | .AggLimit => [[.T 0x200000000000000000000000000000000, .N .Expr ALL]]
  | .AggHaving => [[.T 0x400000000000000000000000000, .T 0x4000000000000000000000000000000000000000000000000000000000000000000000000000, .N .Expr ALL], [.T 0x400000000000000000000000000, .T 0x4000000000000000000000000000000000000000000000000000000000000000000000000000, .N .Expr ALL]]
  | .Over => [[.T 0x800000000000000000000000000000000000000, .N .WindowSpec ALL]]
  | .CaseArms => [[.N .CaseArm ALL], [.N .CaseArm ALL, .N .CaseArms ALL]]
  | .CaseArm => [[.T 0x200000000000000000000000000000000000000000000000000000000, .N .Expr ALL, .T 0x800000000000000000000000000000000000000000000000000, .N .Expr ALL]]
  | .CaseElse => [[.T 0x10000000000000000000, .N .Expr ALL]]
  | .CastFormat => [[.T 0x2000000000000000000000000, .N .Expr ALL]]
  | .AtTimeZone => [[.T 0x400000000, .T 0x1000000000000000000000000000000000000000000000000000, .T 0x4000000000000000000000000000000000000000000000000000000000000000000000000000, .N .Expr ALL]]
  | .Type => [[.T 0xc00000000000000000099c933634c2f7f119d48100f45e86402223a8aa9f0e7675d282e00000], [.T 0xc00000000000000000099c933634c2f7f119d48100f45e86402223a8aa9f0e7675d282e00000, .T 0x4, .N .ExprList ALL, .T 0x8], [.T 0x100000000000000000000000000000], [.T 0x10000000, .T 0x800, .N .Type ALL, .T 0x20000], [.T 0x2000000000000000000000000000000000000000000, .T 0x800, .N .Type ALL, .T 0x20000], [.T 0x40000000000000000000000000000000000000000000000000, .T 0x800, .N .FieldList ALL, .T 0x20000]]
  | .FieldList => [[.N .Field ALL, .T 0x40, .N .FieldList ALL], [.N .Field ALL]]
  | .Field => [[.T 0xc00000000000000000099c933634c2f7f119d48100f45e86402223a8aa9f0e7675d282e00000, .N .Type ALL], [.T 0xc00000000000000000099c933634c2f7f119d48100f45e86402223a8aa9f0e7675d282e00000], [.T 0x10000000, .T 0x800, .N .Type ALL, .T 0x20000], [.T 0x40000000000000000000000000000000000000000000000000, .T 0x800, .N .FieldList ALL, .T 0x20000]]
  | .SchemaType => [[.T 0xc00000000000000000099c933634c2f7f119d48100f45e86402223a8aa9f0e7675d282e00000], [.T 0xc00000000000000000099c933634c2f7f119d48100f45e86402223a8aa9f0e7675d282e00000, .T 0x4, .N .ExprList ALL, .T 0x8], [.T 0x100000000000000000000000000000], [.T 0x10000000, .T 0x800, .N .SchemaType ALL, .N .FieldRest ALL, .T 0x20000], [.T 0x2000000000000000000000000000000000000000000, .T 0x800, .N .SchemaType ALL, .N .FieldRest ALL, .T 0x20000], [.T 0x40000000000000000000000000000000000000000000000000, .T 0x800, .N .SchemaFields ALL, .T 0x20000]]
  | .SchemaFields => [[.N .SchemaField ALL, .T 0x40, .N .SchemaFields ALL], [.N .SchemaField ALL]]
  | .SchemaField => [[.T 0xc00000000000000000099c933634c2f7f119d48100f45e86402223a8aa9f0e7675d282e00000, .N .SchemaType ALL, .N .FieldRest ALL], [.T 0xc00000000000000000099c933634c2f7f119d48100f45e86402223a8aa9f0e7675d282e00000], [.T 0x10000000, .T 0x800, .N .SchemaType ALL, .N .FieldRest ALL, .T 0x20000, .N .FieldRest ALL], [.T 0x40000000000000000000000000000000000000000000000000, .T 0x800, .N .SchemaFields ALL, .T 0x20000, .N .FieldRest ALL]]
  | .FieldRest => [[.N .ColumnCollateOpt ALL, .N .FieldEnd ALL]]
  | .FieldEnd => [[], [.N .Options ALL], [.T 0x200000000000000000000000000000000000, .T 0x400000000000000000000000000000000000, .N .OptionsOpt ALL]]
  | .IdOpt => [[], [.T 0xc000000000000000000000000000000000000000000000000000000000000000000000000000]]
  | .IntoOpt => [[], [.T 0x200000000000000000000000000000]]
  | .FromOpt => [[], [.T 0x4000000000000000000000000]]
  | .AliasOpt => [[], [.N .Alias ALL]]
  | .FromClauseOpt => [[], [.N .FromClause ALL]]
  | .WhereOpt => [[], [.N .Where ALL]]
  | .NotOpt => [[], [.T 0x200000000000000000000000000000000000]]
  | .MatchedByOpt => [[], [.N .MatchedBy ALL]]
  | .MatchedAndOpt => [[], [.N .MatchedAnd ALL]]
  | .ExternalOpt => [[], [.T 0x20000000000000000000000]]
  | .IfNotExistsOpt => [[], [.N .IfNotExists ALL]]
  | .CollateOpt => [[], [.N .Collate ALL]]
  | .ConnectionOpt => [[], [.N .Connection ALL]]
  | .OptionsOpt => [[], [.N .Options ALL]]
  | .OrReplaceOpt => [[], [.N .OrReplace ALL]]
  | .StoringOpt => [[], [.N .Storing ALL]]
  | .PartitionByOpt => [[], [.N .PartitionBy ALL]]
  | .TempWordOpt => [[], [.N .TempWord ALL]]
  | .TableSourceOpt => [[], [.N .TableSource ALL]]
  | .ColumnsOpt => [[], [.N .Columns ALL]]
  | .ClusterByOpt => [[], [.N .ClusterBy ALL]]
  | .PartitionColumnsOpt => [[], [.N .PartitionColumns ALL]]
  | .AsQueryOpt => [[], [.N .AsQuery ALL]]
  | .PlainColumnsOpt => [[], [.N .PlainColumns ALL]]
  | .ColumnCollateOpt => [[], [.N .ColumnCollate ALL]]
  | .EnforcedOpt => [[], [.N .Enforced ALL]]
  | .ViewColumnsOpt => [[], [.N .ViewColumns ALL]]
  | .AggregateOpt => [[], [.T 0x800000]]
  | .ReturnsOpt => [[], [.N .Returns ALL]]
  | .NotAggregateOpt => [[], [.N .NotAggregate ALL]]
  | .NamedConnectionOpt => [[], [.N .NamedConnection ALL]]
  | .ExternalSecurityOpt => [[], [.N .ExternalSecurity ALL]]
  | .GrantToOpt => [[], [.N .GrantTo ALL]]
  | .TransformOpt => [[], [.N .Transform ALL]]
  | .InputOpt => [[], [.N .Input ALL]]
  | .OutputOpt => [[], [.N .Output ALL]]
  | .RemoteOpt => [[], [.N .Remote ALL]]
  | .ModelQueryOpt => [[], [.N .ModelQuery ALL]]
  | .ReservationBodyOpt => [[], [.N .ReservationBody ALL]]
  | .IfExistsOpt => [[], [.N .IfExists ALL]]
  | .MaterializedOpt => [[], [.T 0x4000000000000000000000000000000000]]
  | .TableNameOpt => [[], [.N .TableName ALL]]
  | .DropModeOpt => [[], [.N .DropMode ALL]]
  | .DefaultValueOpt => [[], [.N .DefaultValue ALL]]
  | .IntoVarsOpt => [[], [.N .IntoVars ALL]]
  | .UsingArgsOpt => [[], [.N .UsingArgs ALL]]
  | .HandlerOpt => [[], [.N .Handler ALL]]
  | .ElseOpt => [[], [.N .Else ALL]]
  | .ExprOpt => [[], [.N .Expr ALL]]
  | .RaiseUsingOpt => [[], [.N .RaiseUsing ALL]]
  | .AssertAsOpt => [[], [.N .AssertAs ALL]]
  | .LoadPartitionsOpt => [[], [.N .LoadPartitions ALL]]
  | .RecursiveOpt => [[], [.T 0x8000000000000000000000000000000000000000000]]
  | .OrderByOpt => [[], [.N .OrderBy ALL]]
  | .LimitOpt => [[], [.N .Limit ALL]]
  | .SetNameOpt => [[], [.N .SetName ALL]]
  | .OrdOpt => [[], [.N .Ord ALL]]
  | .PrivacyOpt => [[], [.N .Privacy ALL]]
  | .SelModOpt => [[], [.N .SelMod ALL]]
  | .SelAsOpt => [[], [.N .SelAs ALL]]
  | .GroupByOpt => [[], [.N .GroupBy ALL]]
  | .HavingOpt => [[], [.N .Having ALL]]
  | .QualifyOpt => [[], [.N .Qualify ALL]]
  | .WindowOpt => [[], [.N .Window ALL]]
  | .StarModOpt => [[], [.N .StarMod ALL]]
  | .FrameOpt => [[], [.N .Frame ALL]]
  | .JoinCondOpt => [[], [.N .JoinCond ALL]]
  | .SystemTimeOpt => [[], [.N .SystemTime ALL]]
  | .TableOpOpt => [[], [.N .TableOp ALL]]
  | .SampleOpt => [[], [.N .Sample ALL]]
  | .WithOffsetOpt => [[], [.N .WithOffset ALL]]
  | .TableArgsOpt => [[], [.N .TableArgs ALL]]
  | .PipeGroupByOpt => [[], [.N .PipeGroupBy ALL]]
  | .UnpivotNullsOpt => [[], [.N .UnpivotNulls ALL]]
  | .RowAliasOpt => [[], [.N .RowAlias ALL]]
  | .MeasuresOpt => [[], [.N .Measures ALL]]
  | .AfterMatchOpt => [[], [.N .AfterMatch ALL]]
  | .OverOpt => [[], [.N .Over ALL]]
  | .CaseElseOpt => [[], [.N .CaseElse ALL]]
  | .CastFormatOpt => [[], [.N .CastFormat ALL]]
  | .AtTimeZoneOpt => [[], [.N .AtTimeZone ALL]]
  | .DistinctOpt => [[], [.T 0x4000000000000000000]]
  | .NullsModOpt => [[], [.N .NullsMod ALL]]
  | .AggLimitOpt => [[], [.N .AggLimit ALL]]

/-- First tokens. -/
def firstT : NT → Mask
  | .Statement => 0x281090000302a08100000001140004082480a008901020901082000004
  | .Plain => 0x281090000302a08100000001140004082480a008901020901082000004
  | .Block => 0x281090000302a08100000001144084082480a008901220941082000004
  | .Step => 0x281090000302a08100000001144084082480a008901220941082000004
  | .PlainStep => 0x281090000302a08100000001144084082480a008901220941082000004
  | .Jump => 0x40800000000000000200040000000000
  | .JumpWord => 0x40800000000000000200040000000000
  | .Insert => 0x40000000000000000000000000000
  | .InsertInput => 0x2040000001000000000000000000000000000000000000000000000004
  | .PipeInsert => 0x40000000000000000000000000000
  | .InsertRows => 0x40000000000000000000000000000000000000000000000000000000
  | .Rows => 0x4
  | .Row => 0x4
  | .ValueList => 0x7c00000000000000040899c9b3674e3f7f799d48160f4de9648222fe8aabf0e77f7da92f000a4
  | .Value => 0x7c00000000000000040899c9b3674e3f7f799d48160f4de9648222fe8aabf0e77f7da92f000a4
  | .Delete => 0x800000000000000000
  | .Truncate => 0x100000000000000000000000000000000000000000000000000000
  | .Update => 0x10000000000000000000000000000000000000000000000000000000
  | .UpdateSet => 0x2000000000000000000000000000000000000000000000000
  | .SetItems => 0x7c00000000000000040899c9b3674e3f7f799d48160f4de9648222fe8aa9f0e77f7da92f000a4
  | .SetItem => 0x7c00000000000000040899c9b3674e3f7f799d48160f4de9648222fe8aa9f0e77f7da92f000a4
  | .Merge => 0x10000000000000000000000000000000000
  | .MergeSource => 0xc00000000000000000099c933634c2f7f119d48100f45e86402223a8aa9f0e7675d282e00004
  | .Whens => 0x200000000000000000000000000000000000000000000000000000000
  | .When => 0x200000000000000000000000000000000000000000000000000000000
  | .MatchedBy => 0x80000000000
  | .MatchedAnd => 0x4000000
  | .MergeAction => 0x10000000000000000000000000040000000000800000000000000000
  | .MergeInput => 0x40000000080000000000000000000000000000000000000000000000
  | .OrReplace => 0x20000000000000000000000000000000000000
  | .IfNotExists => 0x800000000000000000000000000
  | .IfExists => 0x800000000000000000000000000
  | .Options => 0x10000000000000000000000000000000000000
  | .Connection => 0x2000000000000000000000000000000000000000000000000000000000
  | .NamedConnection => 0x2000000000000000000000000000000000000000000000000000000000
  | .Collate => 0x200000000000000000
  | .ClusterBy => 0x4000000000000
  | .CreateSchema => 0x1000000000000000
  | .CreateIndex => 0x1000000000000000
  | .IndexKind => 0x80000000800000000000000000000000000000000000000000000000
  | .IndexCols => 0x4
  | .Storing => 0x10000000000000000000000000000000000000000000000000
  | .CreateTable => 0x1000000000000000
  | .TableEnd => 0x10000000000000000000000002000020000000
  | .TempWord => 0x600000000000000000000000000000000000000000000000000
  | .TableSource => 0x100000000000000000400000000000000
  | .CloneOf => 0x2000000000000
  | .PartitionColumns => 0x2000000000000000000000000000000000000000000000000000000000
  | .AsQuery => 0x20000000
  | .PipeTable => 0x1000000000000000
  | .Columns => 0x4
  | .ColumnList => 0xc00000000000000000099c933634c2f7f11dd48100f45e86402323a8aa9f0ef675d282e00000
  | .Column => 0xc00000000000000000099c933634c2f7f11dd48100f45e86402323a8aa9f0ef675d282e00000
  | .PlainColumns => 0x4
  | .PlainColumnList => 0xc00000000000000000099c933634c2f7f119d48100f45e86402223a8aa9f0e7675d282e00000
  | .PlainColumn => 0xc00000000000000000099c933634c2f7f119d48100f45e86402223a8aa9f0e7675d282e00000
  | .ColumnRest => 0x10040010200000000000000000200088000000000000
  | .ColumnMore => 0x10040010200000000000000000200080000000000000
  | .ColumnCollate => 0x8000000000000
  | .ColumnKey => 0x10040000000000000000000000000080000000000000
  | .References => 0x10000000000000000000000000000000000000000000
  | .ColumnConstraint => 0x80000000000000
  | .Enforced => 0x200000000000000080000000000000000000
  | .ColumnDefault => 0x10000000000000000000200000000000000000
  | .ColumnEnd => 0x10200000000000000000200000000000000000
  | .TableConstraint => 0x40000000000000001000000000080000000000000
  | .TableKey => 0x40000000000000001000000000000000000000000
  | .ConstraintName => 0x80000000000000
  | .CreateView => 0x1000000000000000
  | .ViewBody => 0x20000000
  | .PipeView => 0x1000000000000000
  | .ViewColumns => 0x4
  | .ViewColumnList => 0xc00000000000000000099c933634c2f7f119d48100f45e86402223a8aa9f0e7675d282e00000
  | .CreateFunction => 0x1000000000000000
  | .PipeFunction => 0x1000000000000000
  | .Parameters => 0x4
  | .ParameterList => 0xc00000000000000000099c933634c2f7f119d48100f45e86402223a8aa9f0e7675d282e00000
  | .Parameter => 0xc00000000000000000099c933634c2f7f119d48100f45e86402223a8aa9f0e7675d282e00000
  | .ParamType => 0xc00000000000000000099c933674c2f7f319d48100f45e96402223a8aa9f0e7675d29ae00000
  | .NotAggregate => 0x200000000000000000000000000000000000
  | .Returns => 0x4000000000000000000000000000000000000000000000
  | .ReturnType => 0xc00000000000000000099c9336f4c2f7f319d48100f45e96402223a8aa9f0e7675d292e00000
  | .FunctionBody => 0x20000000200008000000000002000000000020000000
  | .LanguageBody => 0x8000000000000000000000000000000
  | .Determinism => 0x200000000000000002000000000000000000
  | .CreateProcedure => 0x1000000000000000
  | .ProcParameters => 0x4
  | .ProcParameterList => 0xc00000000000000000099c933634c2f7f119d58100f45e87602223a8aa9f0e7675d282e00000
  | .ProcParameter => 0xc00000000000000000099c933634c2f7f119d58100f45e87602223a8aa9f0e7675d282e00000
  | .ParamMode => 0x100000000012000000000000000000000000000
  | .ExternalSecurity => 0x20000000000000000000000
  | .ProcBody => 0x8000000000000000000001000000000
  | .CreatePolicy => 0x1000000000000000
  | .GrantTo => 0x20000000000000000000000000
  | .CreateModel => 0x1000000000000000
  | .Transform => 0x20000000000000000000000000000000000000000000000000000
  | .Input => 0x20000000000000000000000000000
  | .Output => 0x400000000000000000000000000000000000000
  | .Remote => 0x20000000000000000000000000000000000000000000
  | .ModelQuery => 0x20000000
  | .CreateReservation => 0x1000000000000000
  | .ReservationKind => 0x400000000000000000000000000000000200200000000
  | .ReservationBody => 0x10000000000000000000000000000020000000
  | .AlterSchema => 0x2000000
  | .SchemaChange => 0x2000000000000000000000000000008000000000000200000
  | .AlterTable => 0x2000000
  | .TableChange => 0x2000040000000000000000000000008000000000002200000
  | .AddColumns => 0x200000
  | .AddColumn => 0x200000
  | .AddConstraints => 0x200000
  | .RenameColumns => 0x40000000000000000000000000000000000000000000
  | .RenameColumn => 0x40000000000000000000000000000000000000000000
  | .DropParts => 0x8000000000000000000
  | .DropPart => 0x8000000000000000000
  | .AlterColumn => 0x2000000
  | .ColumnChange => 0x2000000000000000000000000000008000000000000000000
  | .AlterView => 0x2000000
  | .ViewChange => 0x2000000000000000000000000000000000000000002000000
  | .AlterIndex => 0x2000000
  | .AlterOther => 0x2000000
  | .DropPolicy => 0x8000000000000000000
  | .Drop => 0x8000000000000000000
  | .DropKind => 0x100000080400400080000024000000010020000000000200200000000
  | .DropMode => 0x1000000000000000000000000000000000400000000000
  | .Undrop => 0x800000000000000000000000000000000000000000000000000000
  | .Grant => 0x20000000000000000000000000
  | .Revoke => 0x8000000000000000000000000000000000000000000000
  | .GrantKind => 0x100000080400000000000000000000000000000000000000000000000
  | .Declare => 0x100000000000000000
  | .Variables => 0xc00000000000000000099c933634c2f7f119d48100f45e86402223a8aa9f0e7675d282e00000
  | .DefaultValue => 0x200000000000000000
  | .Set => 0x2000000000000000000000000000000000000000000000000
  | .Execute => 0x2000000000000000000000
  | .IntoVars => 0x200000000000000000000000000000
  | .UsingArgs => 0x20000000000000000000000000000000000000000000000000000000
  | .Begin => 0x1000000000
  | .BeginBlock => 0x1000000000
  | .Handler => 0x800000000000000000000
  | .If => 0x800000000000000000000000000
  | .ElseIfs => 0x20000000000000000000
  | .Else => 0x10000000000000000000
  | .Case => 0x800000000000
  | .CaseSteps => 0x200000000000000000000000000000000000000000000000000000000
  | .CaseStep => 0x200000000000000000000000000000000000000000000000000000000
  | .Loop => 0x1000000000000000000000000000000000
  | .Repeat => 0x80000000000000000000000000000000000000000000
  | .While => 0x800000000000000000000000000000000000000000000000000000000
  | .For => 0x800000000000000000000000
  | .ParQ0 => 0x4
  | .Transaction => 0x20000000000000000000000000000000020001000000000
  | .TxWord => 0x20000000000000000000000000000000020001000000000
  | .Raise => 0x1000000000000000000000000000000000000000000
  | .RaiseUsing => 0x20000000000000000000000000000000000000000000000000000000
  | .Call => 0x100000000000
  | .Assert => 0x80000000
  | .AssertAs => 0x20000000
  | .ExportData => 0x8000000000000000000000
  | .PipeExport => 0x8000000000000000000000
  | .ExportModel => 0x8000000000000000000000
  | .Load => 0x400000000000000000000000000000000
  | .LoadMode => 0x1000000000200000000000000000000000000000
  | .LoadPartitions => 0x5000000000000000000000000000000000000000
  | .Query => 0x2000000001000000000000000000000000000000000000000000000004
  | .QueryBody => 0x1000000000000000000000000000000000000000000000004
  | .With => 0x2000000000000000000000000000000000000000000000000000000000
  | .Ctes => 0xc00000000000000000099c933634c2f7f119d48100f45e86402223a8aa9f0e7675d282e00000
  | .Cte => 0xc00000000000000000099c933634c2f7f119d48100f45e86402223a8aa9f0e7675d282e00000
  | .SelQ => 0x1000000000000000000000000000000000000000000000000
  | .SelRest => 0x1000000000000000040000200080000000000000000000000000000
  | .SelExcept => 0x400000000000000000000
  | .SelMethod => 0x200000080008008000000000000000000000000
  | .ParRest1 => 0x1000000000000000200000080088008000400000000000000000000
  | .ParQ => 0x4
  | .ParRest => 0x1000000000000000240000280088008000400000000000000000000
  | .SetOp => 0x1000000000000000200000080088008000400000000000000000000
  | .SetOpU => 0x1000000000000000000000000080000000000000000000000000000
  | .SetOpE => 0x400000000000000000000
  | .SetOpM => 0x200000080008008000000000000000000000000
  | .SetMethod => 0x200000080008008000000000000000000000000
  | .SetKind => 0x1000000000000000000000000080000000000000000000000000000
  | .SetName => 0x20000000000000000000000000000000000800080000000000
  | .Corresponding => 0x800000000000000
  | .OrderBy => 0x40000000000000000000000000000000000000
  | .OrderItems => 0x7c00000000000000040899c9b3674e3f7f799d48160f4de9648222fe8aa9f0e77f7da92f000a4
  | .Ord => 0x800000000000000001000000000040000000
  | .NullOrder => 0x800000000000000000000000000000000000
  | .Limit => 0x200000000000000000000000000000000
  | .SelectCore => 0x1000000000000000000000000000000000000000000000000
  | .SelectOnly => 0x1000000000000000000000000000000000000000000000000
  | .Privacy => 0x2000000000000000000000000000000000000000000000000000000000
  | .SelectFrom => 0x1000000000000000000000000000000000000000000000000
  | .Clauses => 0x1400000000000000400000000000000440000000000000000000000000
  | .SelMod => 0x4000000000001000000
  | .SelAs => 0x20000000
  | .SelectList => 0x7c00000000000000040a99c9b3674e3f7f799d48160f4de9648222fe8aa9f0e77f7da92f000b4
  | .SelectItem => 0x7c00000000000000040a99c9b3674e3f7f799d48160f4de9648222fe8aa9f0e77f7da92f000b4
  | .WithArgs => 0xc000000000000000000000000000000000000000000000000000000000000000000000000000
  | .DotBase => 0xc00000000000000000099c933634c2f7f119d48100f45e86402223a8aa9f0e7675d282e00004
  | .StarMod => 0x100000000000000000000000400000000000000000000
  | .Alias => 0xc000000000000000000000000000000000000000000000000000000000000000000020000000
  | .AliasedList => 0x7c00000000000000040899c9b3674e3f7f799d48160f4de9648222fe8aa9f0e77f7da92f000a4
  | .FromClause => 0x4000000000000000000000000
  | .Where => 0x400000000000000000000000000000000000000000000000000000000
  | .GroupBy => 0x40000000000000000000000000
  | .GroupItems => 0x7c00000000000000040899c9b3674e7f7f799d48160f4de9648a22fe8aa9f4e77f7da93f000a4
  | .Having => 0x400000000000000000000000000
  | .Qualify => 0x400000000000000000000000000000000000000000
  | .Window => 0x1000000000000000000000000000000000000000000000000000000000
  | .WindowDefs => 0xc000000000000000000000000000000000000000000000000000000000000000000000000000
  | .WindowDef => 0xc000000000000000000000000000000000000000000000000000000000000000000000000000
  | .WindowSpec => 0xc000000000000000000000000000000000000000000000000000000000000000000000000004
  | .PartitionBy => 0x2000000000000000000000000000000000000000
  | .Frame => 0x100002000000000000000000000000000000000000000000
  | .FrameUnit => 0x100002000000000000000000000000000000000000000000
  | .FrameBound => 0x10000000000000000000000400000000000000000000000000000000000008000000000000000
  | .InQuery => 0x2000000001000000000000000000000004000000000000000000000004
  | .InQueryN => 0x2000000001000000000000000000000004000000000000000000000000
  | .InQueryE => 0x2000000001000000000000000000000000000000000000000000000000
  | .PipeQuery => 0x2000000001000000000000000000000004000000000000000000000004
  | .SelPipe => 0x2000000001000000000000000000000000000000000000000000000004
  | .SelPipeN => 0x2000000001000000000000000000000000000000000000000000000000
  | .ParPipe => 0x4
  | .WithPipe => 0x2000000000000000000000000000000000000000000000000000000000
  | .SelHeadN => 0x1000000000000000000000000000000000000000000000000
  | .FromHead => 0x4000000000000000000000000
  | .TableExprP => 0xc00000000000000000099e933634c2f7f119d48100f45e86402223a8aa9f0e7675d282e00004
  | .JoinsP => 0x10000000000000081008008000000002000000000000040
  | .TablePrimP => 0xc00000000000000000099e933634c2f7f119d48100f45e86402223a8aa9f0e7675d282e00004
  | .Pipes => 0x100000000000000000000000000000000000000000000000000000000000
  | .PipeOp => 0x40500010301004001024000228108800801040c002000100020800000
  | .PipeWord => 0x400000002000040000000000000000000010008000000100020000000
  | .PipeGroupBy => 0x40000000000000000000000000
  | .PipeGroupItems => 0x7c00000000000000040899c9b3674e7f7f799d48160f4de9648a22fe8aa9f4e77f7da93f000a4
  | .PipeInputs => 0x4
  | .PipeJoin => 0x10000000000000081008008000000002000000000000000
  | .TableExpr => 0xc00000000000000000099e933634c2f7f119d48100f45e86402223a8aa9f0e7675d282e00004
  | .Joins => 0x10000000000000081008008000000002000000000000040
  | .JoinKind => 0x10000000000000081008008000000002000000000000000
  | .JoinCond => 0x20000000000000000008000000000000000000000000000000000000
  | .TablePrim => 0xc00000000000000000099e933634c2f7f119d48100f45e86402223a8aa9f0e7675d282e00004
  | .QueryN => 0x2000000001000000000000000000000000000000000000000000000000
  | .TableExprN => 0xc00000000000000000099c933634c2f7f119d48100f45e86402223a8aa9f0e7675d282e00000
  | .TableOp => 0x4000000000000010000002000000000000000000000000000000000
  | .Pivot => 0x10000000000000000000000000000000000000000
  | .PivotConfig => 0x4
  | .PivotIn => 0x2000000000000000000000000000
  | .Unpivot => 0x4000000000000000000000000000000000000000000000000000000
  | .UnpivotNulls => 0x4000001000000000000000000000
  | .UnpivotConfig => 0x4
  | .UnpivotValues => 0xc000000000000000000000000000000000000000000000000000000000000000000000000004
  | .UnpivotItems => 0xc000000000000000000000000000000000000000000000000000000000000000000000000004
  | .UnpivotItem => 0xc000000000000000000000000000000000000000000000000000000000000000000000000004
  | .RowAlias => 0x30000000000000000000000000000000000000000000000000000000000000000000020000000
  | .MatchRecognize => 0x2000000000000000000000000000000000
  | .MatchConfig => 0x4
  | .Measures => 0x8000000000000000000000000000000000
  | .NamedExprs => 0x7c00000000000000040899c9b3674e3f7f799d48160f4de9648222fe8aa9f0e77f7da92f000a4
  | .AfterMatch => 0x400000
  | .Define => 0x400000000000000000
  | .Definitions => 0xc000000000000000000000000000000000000000000000000000000000000000000000000000
  | .PatternGroup => 0x4
  | .PatternSeq => 0xc000000000000000000000000000000000000000000000000000000000000000000000000004
  | .PatternOrs => 0x80000000000000000000000000000000000000000000000000000000000
  | .PatternUnit => 0xc000000000000000000000000000000000000000000000000000000000000000000000000004
  | .Suffixes => 0x100030
  | .Suffix => 0x100030
  | .TvfName => 0xc000000000000000000000000000000000000000000000000000000000000000000000000000
  | .TvfRest => 0x100
  | .TableName => 0xc00000000000000000099c933634c2f7f119d48100f45e86402223a8aa9f0e7675d282e00000
  | .NameRest => 0x100
  | .SystemTime => 0x800000000000000000000000
  | .Sample => 0x100000000000000000000000000000000000000000000000000
  | .WithOffset => 0x2000000000000000000000000000000000000000000000000000000000
  | .TableArgs => 0x7c00000000000000040899c9b36f4e3f7f799d48162f4de9648222fe8aa9f0e77f7da92f000a4
  | .TableArg => 0x7c00000000000000040899c9b36f4e3f7f799d48162f4de9648222fe8aa9f0e77f7da92f000a4
  | .ExprList => 0x7c00000000000000040899c9b3674e3f7f799d48160f4de9648222fe8aa9f0e77f7da92f000a4
  | .Expr => 0x7c00000000000000040899c9b3674e3f7f799d48160f4de9648222fe8aa9f0e77f7da92f000a4
  | .NotUnary => 0x7c00000000000000040899c9b3674e3f7f799d48160f4de9648222fe8aa9f0e77f7da92f000a4
  | .Unary => 0x7c00000000000000040899c9b3674e3f7f799d48140f4de9648222fe8aa9f0e77f7da92f000a4
  | .Tail => 0x2a00000000000000000000202001004020000000000000000020040efab3
  | .OpChunk => 0x2a00000000000000000000202001004020000000000000000020040efab3
  | .InOp => 0x200000002000000000000000000000000000
  | .BetweenOp => 0x200000000000000000000000002000000000
  | .LikeOp => 0x200100000000000000000000000000000000
  | .IsWhat => 0x80000000000000000400000000000080000000000000000000000
  | .ArithOp => 0x2a00000000000000000000000000000000000000000000000000000812b2
  | .CompOp => 0x6e801
  | .LogicOp => 0x20000000000000000000000000000004000000
  | .TailB => 0x2a00000000000000000000000000000000000000000000000000000812b2
  | .Primary => 0x7c00000000000000000899c9b3674e3f7f799d48140f4de9648222fe8aa9f0e77f7da92f00004
  | .FuncWord => 0x10000000000000080000800000000000000000000000000
  | .TypedLit => 0x30000000048000010000020000000000000e000002c800000000
  | .DateWord => 0x30000000000000010000020000000000000e000000c000000000
  | .RawWord => 0x4800000000000000000000000000000020800000000
  | .Post => 0x8000000000000000000000000000000000000000000000000000000100
  | .PostStep => 0x8000000000000000000000000000000000000000000000000000000100
  | .CallArgs => 0x7c00000000000000040899c9b3674e3f7f799d48160f4de9648222fe8ae9f0e77f7da92f000b4
  | .Args => 0x7c00000000000000040899c9b3674e3f7f799d48160f4de9648222fe8aa9f0e77f7da92f000a4
  | .Arg => 0x7c00000000000000040899c9b3674e3f7f799d48160f4de9648222fe8aa9f0e77f7da92f000a4
  | .AggMods => 0x800000040000200001400000000000000000000000000
  | .NullsMod => 0x800000000000000001000000000000000000000000000
  | .AggLimit => 0x200000000000000000000000000000000
  | .AggHaving => 0x400000000000000000000000000
  | .Over => 0x800000000000000000000000000000000000000
  | .CaseArms => 0x200000000000000000000000000000000000000000000000000000000
  | .CaseArm => 0x200000000000000000000000000000000000000000000000000000000
  | .CaseElse => 0x10000000000000000000
  | .CastFormat => 0x2000000000000000000000000
  | .AtTimeZone => 0x400000000
  | .Type => 0xc00000000000000000099c933674c2f7f319d48100f45e96402223a8aa9f0e7675d292e00000
  | .FieldList => 0xc00000000000000000099c933674c2f7f119d48100f45e86402223a8aa9f0e7675d292e00000
  | .Field => 0xc00000000000000000099c933674c2f7f119d48100f45e86402223a8aa9f0e7675d292e00000
  | .SchemaType => 0xc00000000000000000099c933674c2f7f319d48100f45e96402223a8aa9f0e7675d292e00000
  | .SchemaFields => 0xc00000000000000000099c933674c2f7f119d48100f45e86402223a8aa9f0e7675d292e00000
  | .SchemaField => 0xc00000000000000000099c933674c2f7f119d48100f45e86402223a8aa9f0e7675d292e00000
  | .FieldRest => 0x10200000000000000000000008000000000000
  | .FieldEnd => 0x10200000000000000000000000000000000000
  | .IdOpt => 0xc000000000000000000000000000000000000000000000000000000000000000000000000000
  | .IntoOpt => 0x200000000000000000000000000000
  | .FromOpt => 0x4000000000000000000000000
  | .AliasOpt => 0xc000000000000000000000000000000000000000000000000000000000000000000020000000
  | .FromClauseOpt => 0x4000000000000000000000000
  | .WhereOpt => 0x400000000000000000000000000000000000000000000000000000000
  | .NotOpt => 0x200000000000000000000000000000000000
  | .MatchedByOpt => 0x80000000000
  | .MatchedAndOpt => 0x4000000
  | .ExternalOpt => 0x20000000000000000000000
  | .IfNotExistsOpt => 0x800000000000000000000000000
  | .CollateOpt => 0x200000000000000000
  | .ConnectionOpt => 0x2000000000000000000000000000000000000000000000000000000000
  | .OptionsOpt => 0x10000000000000000000000000000000000000
  | .OrReplaceOpt => 0x20000000000000000000000000000000000000
  | .StoringOpt => 0x10000000000000000000000000000000000000000000000000
  | .PartitionByOpt => 0x2000000000000000000000000000000000000000
  | .TempWordOpt => 0x600000000000000000000000000000000000000000000000000
  | .TableSourceOpt => 0x100000000000000000400000000000000
  | .ColumnsOpt => 0x4
  | .ClusterByOpt => 0x4000000000000
  | .PartitionColumnsOpt => 0x2000000000000000000000000000000000000000000000000000000000
  | .AsQueryOpt => 0x20000000
  | .PlainColumnsOpt => 0x4
  | .ColumnCollateOpt => 0x8000000000000
  | .EnforcedOpt => 0x200000000000000080000000000000000000
  | .ViewColumnsOpt => 0x4
  | .AggregateOpt => 0x800000
  | .ReturnsOpt => 0x4000000000000000000000000000000000000000000000
  | .NotAggregateOpt => 0x200000000000000000000000000000000000
  | .NamedConnectionOpt => 0x2000000000000000000000000000000000000000000000000000000000
  | .ExternalSecurityOpt => 0x20000000000000000000000
  | .GrantToOpt => 0x20000000000000000000000000
  | .TransformOpt => 0x20000000000000000000000000000000000000000000000000000
  | .InputOpt => 0x20000000000000000000000000000
  | .OutputOpt => 0x400000000000000000000000000000000000000
  | .RemoteOpt => 0x20000000000000000000000000000000000000000000
  | .ModelQueryOpt => 0x20000000
  | .ReservationBodyOpt => 0x10000000000000000000000000000020000000
  | .IfExistsOpt => 0x800000000000000000000000000
  | .MaterializedOpt => 0x4000000000000000000000000000000000
  | .TableNameOpt => 0xc00000000000000000099c933634c2f7f119d48100f45e86402223a8aa9f0e7675d282e00000
  | .DropModeOpt => 0x1000000000000000000000000000000000400000000000
  | .DefaultValueOpt => 0x200000000000000000
  | .IntoVarsOpt => 0x200000000000000000000000000000
  | .UsingArgsOpt => 0x20000000000000000000000000000000000000000000000000000000
  | .HandlerOpt => 0x800000000000000000000
  | .ElseOpt => 0x10000000000000000000
  | .ExprOpt => 0x7c00000000000000040899c9b3674e3f7f799d48160f4de9648222fe8aa9f0e77f7da92f000a4
  | .RaiseUsingOpt => 0x20000000000000000000000000000000000000000000000000000000
  | .AssertAsOpt => 0x20000000
  | .LoadPartitionsOpt => 0x5000000000000000000000000000000000000000
  | .RecursiveOpt => 0x8000000000000000000000000000000000000000000
  | .OrderByOpt => 0x40000000000000000000000000000000000000
  | .LimitOpt => 0x200000000000000000000000000000000
  | .SetNameOpt => 0x20000000000000000000000000000000000800080000000000
  | .OrdOpt => 0x800000000000000001000000000040000000
  | .PrivacyOpt => 0x2000000000000000000000000000000000000000000000000000000000
  | .SelModOpt => 0x4000000000001000000
  | .SelAsOpt => 0x20000000
  | .GroupByOpt => 0x40000000000000000000000000
  | .HavingOpt => 0x400000000000000000000000000
  | .QualifyOpt => 0x400000000000000000000000000000000000000000
  | .WindowOpt => 0x1000000000000000000000000000000000000000000000000000000000
  | .StarModOpt => 0x100000000000000000000000400000000000000000000
  | .FrameOpt => 0x100002000000000000000000000000000000000000000000
  | .JoinCondOpt => 0x20000000000000000008000000000000000000000000000000000000
  | .SystemTimeOpt => 0x800000000000000000000000
  | .TableOpOpt => 0x4000000000000010000002000000000000000000000000000000000
  | .SampleOpt => 0x100000000000000000000000000000000000000000000000000
  | .WithOffsetOpt => 0x2000000000000000000000000000000000000000000000000000000000
  | .TableArgsOpt => 0x7c00000000000000040899c9b36f4e3f7f799d48162f4de9648222fe8aa9f0e77f7da92f000a4
  | .PipeGroupByOpt => 0x40000000000000000000000000
  | .UnpivotNullsOpt => 0x4000001000000000000000000000
  | .RowAliasOpt => 0x30000000000000000000000000000000000000000000000000000000000000000000020000000
  | .MeasuresOpt => 0x8000000000000000000000000000000000
  | .AfterMatchOpt => 0x400000
  | .OverOpt => 0x800000000000000000000000000000000000000
  | .CaseElseOpt => 0x10000000000000000000
  | .CastFormatOpt => 0x2000000000000000000000000
  | .AtTimeZoneOpt => 0x400000000
  | .DistinctOpt => 0x4000000000000000000
  | .NullsModOpt => 0x800000000000000001000000000000000000000000000
  | .AggLimitOpt => 0x200000000000000000000000000000000

/-- Emptiness. -/
def nullableT : NT → Bool
  | .Statement => false
  | .Plain => false
  | .Block => true
  | .Step => false
  | .PlainStep => false
  | .Jump => false
  | .JumpWord => false
  | .Insert => false
  | .InsertInput => false
  | .PipeInsert => false
  | .InsertRows => false
  | .Rows => false
  | .Row => false
  | .ValueList => false
  | .Value => false
  | .Delete => false
  | .Truncate => false
  | .Update => false
  | .UpdateSet => false
  | .SetItems => false
  | .SetItem => false
  | .Merge => false
  | .MergeSource => false
  | .Whens => false
  | .When => false
  | .MatchedBy => false
  | .MatchedAnd => false
  | .MergeAction => false
  | .MergeInput => false
  | .OrReplace => false
  | .IfNotExists => false
  | .IfExists => false
  | .Options => false
  | .Connection => false
  | .NamedConnection => false
  | .Collate => false
  | .ClusterBy => false
  | .CreateSchema => false
  | .CreateIndex => false
  | .IndexKind => false
  | .IndexCols => false
  | .Storing => false
  | .CreateTable => false
  | .TableEnd => true
  | .TempWord => false
  | .TableSource => false
  | .CloneOf => false
  | .PartitionColumns => false
  | .AsQuery => false
  | .PipeTable => false
  | .Columns => false
  | .ColumnList => false
  | .Column => false
  | .PlainColumns => false
  | .PlainColumnList => false
  | .PlainColumn => false
  | .ColumnRest => true
  | .ColumnMore => true
  | .ColumnCollate => false
  | .ColumnKey => false
  | .References => false
  | .ColumnConstraint => false
  | .Enforced => false
  | .ColumnDefault => true
  | .ColumnEnd => true
  | .TableConstraint => false
  | .TableKey => false
  | .ConstraintName => false
  | .CreateView => false
  | .ViewBody => false
  | .PipeView => false
  | .ViewColumns => false
  | .ViewColumnList => false
  | .CreateFunction => false
  | .PipeFunction => false
  | .Parameters => false
  | .ParameterList => false
  | .Parameter => false
  | .ParamType => false
  | .NotAggregate => false
  | .Returns => false
  | .ReturnType => false
  | .FunctionBody => false
  | .LanguageBody => false
  | .Determinism => false
  | .CreateProcedure => false
  | .ProcParameters => false
  | .ProcParameterList => false
  | .ProcParameter => false
  | .ParamMode => false
  | .ExternalSecurity => false
  | .ProcBody => false
  | .CreatePolicy => false
  | .GrantTo => false
  | .CreateModel => false
  | .Transform => false
  | .Input => false
  | .Output => false
  | .Remote => false
  | .ModelQuery => false
  | .CreateReservation => false
  | .ReservationKind => false
  | .ReservationBody => false
  | .AlterSchema => false
  | .SchemaChange => false
  | .AlterTable => false
  | .TableChange => false
  | .AddColumns => false
  | .AddColumn => false
  | .AddConstraints => false
  | .RenameColumns => false
  | .RenameColumn => false
  | .DropParts => false
  | .DropPart => false
  | .AlterColumn => false
  | .ColumnChange => false
  | .AlterView => false
  | .ViewChange => false
  | .AlterIndex => false
  | .AlterOther => false
  | .DropPolicy => false
  | .Drop => false
  | .DropKind => false
  | .DropMode => false
  | .Undrop => false
  | .Grant => false
  | .Revoke => false
  | .GrantKind => false
  | .Declare => false
  | .Variables => false
  | .DefaultValue => false
  | .Set => false
  | .Execute => false
  | .IntoVars => false
  | .UsingArgs => false
  | .Begin => false
  | .BeginBlock => false
  | .Handler => false
  | .If => false
  | .ElseIfs => true
  | .Else => false
  | .Case => false
  | .CaseSteps => false
  | .CaseStep => false
  | .Loop => false
  | .Repeat => false
  | .While => false
  | .For => false
  | .ParQ0 => false
  | .Transaction => false
  | .TxWord => false
  | .Raise => false
  | .RaiseUsing => false
  | .Call => false
  | .Assert => false
  | .AssertAs => false
  | .ExportData => false
  | .PipeExport => false
  | .ExportModel => false
  | .Load => false
  | .LoadMode => false
  | .LoadPartitions => false
  | .Query => false
  | .QueryBody => false
  | .With => false
  | .Ctes => false
  | .Cte => false
  | .SelQ => false
  | .SelRest => true
  | .SelExcept => false
  | .SelMethod => false
  | .ParRest1 => true
  | .ParQ => false
  | .ParRest => true
  | .SetOp => false
  | .SetOpU => false
  | .SetOpE => false
  | .SetOpM => false
  | .SetMethod => false
  | .SetKind => false
  | .SetName => false
  | .Corresponding => false
  | .OrderBy => false
  | .OrderItems => false
  | .Ord => false
  | .NullOrder => false
  | .Limit => false
  | .SelectCore => false
  | .SelectOnly => false
  | .Privacy => false
  | .SelectFrom => false
  | .Clauses => true
  | .SelMod => false
  | .SelAs => false
  | .SelectList => false
  | .SelectItem => false
  | .WithArgs => false
  | .DotBase => false
  | .StarMod => false
  | .Alias => false
  | .AliasedList => false
  | .FromClause => false
  | .Where => false
  | .GroupBy => false
  | .GroupItems => false
  | .Having => false
  | .Qualify => false
  | .Window => false
  | .WindowDefs => false
  | .WindowDef => false
  | .WindowSpec => false
  | .PartitionBy => false
  | .Frame => false
  | .FrameUnit => false
  | .FrameBound => false
  | .InQuery => false
  | .InQueryN => false
  | .InQueryE => false
  | .PipeQuery => false
  | .SelPipe => false
  | .SelPipeN => false
  | .ParPipe => false
  | .WithPipe => false
  | .SelHeadN => false
  | .FromHead => false
  | .TableExprP => false
  | .JoinsP => true
  | .TablePrimP => false
  | .Pipes => false
  | .PipeOp => false
  | .PipeWord => false
  | .PipeGroupBy => false
  | .PipeGroupItems => false
  | .PipeInputs => false
  | .PipeJoin => false
  | .TableExpr => false
  | .Joins => true
  | .JoinKind => false
  | .JoinCond => false
  | .TablePrim => false
  | .QueryN => false
  | .TableExprN => false
  | .TableOp => false
  | .Pivot => false
  | .PivotConfig => false
  | .PivotIn => false
  | .Unpivot => false
  | .UnpivotNulls => false
  | .UnpivotConfig => false
  | .UnpivotValues => false
  | .UnpivotItems => false
  | .UnpivotItem => false
  | .RowAlias => false
  | .MatchRecognize => false
  | .MatchConfig => false
  | .Measures => false
  | .NamedExprs => false
  | .AfterMatch => false
  | .Define => false
  | .Definitions => false
  | .PatternGroup => false
  | .PatternSeq => true
  | .PatternOrs => true
  | .PatternUnit => false
  | .Suffixes => true
  | .Suffix => false
  | .TvfName => false
  | .TvfRest => true
  | .TableName => false
  | .NameRest => true
  | .SystemTime => false
  | .Sample => false
  | .WithOffset => false
  | .TableArgs => false
  | .TableArg => false
  | .ExprList => false
  | .Expr => false
  | .NotUnary => false
  | .Unary => false
  | .Tail => true
  | .OpChunk => false
  | .InOp => false
  | .BetweenOp => false
  | .LikeOp => false
  | .IsWhat => false
  | .ArithOp => false
  | .CompOp => false
  | .LogicOp => false
  | .TailB => true
  | .Primary => false
  | .FuncWord => false
  | .TypedLit => false
  | .DateWord => false
  | .RawWord => false
  | .Post => true
  | .PostStep => false
  | .CallArgs => true
  | .Args => false
  | .Arg => false
  | .AggMods => true
  | .NullsMod => false
  | .AggLimit => false
  | .AggHaving => false
  | .Over => false
  | .CaseArms => false
  | .CaseArm => false
  | .CaseElse => false
  | .CastFormat => false
  | .AtTimeZone => false
  | .Type => false
  | .FieldList => false
  | .Field => false
  | .SchemaType => false
  | .SchemaFields => false
  | .SchemaField => false
  | .FieldRest => true
  | .FieldEnd => true
  | .IdOpt => true
  | .IntoOpt => true
  | .FromOpt => true
  | .AliasOpt => true
  | .FromClauseOpt => true
  | .WhereOpt => true
  | .NotOpt => true
  | .MatchedByOpt => true
  | .MatchedAndOpt => true
  | .ExternalOpt => true
  | .IfNotExistsOpt => true
  | .CollateOpt => true
  | .ConnectionOpt => true
  | .OptionsOpt => true
  | .OrReplaceOpt => true
  | .StoringOpt => true
  | .PartitionByOpt => true
  | .TempWordOpt => true
  | .TableSourceOpt => true
  | .ColumnsOpt => true
  | .ClusterByOpt => true
  | .PartitionColumnsOpt => true
  | .AsQueryOpt => true
  | .PlainColumnsOpt => true
  | .ColumnCollateOpt => true
  | .EnforcedOpt => true
  | .ViewColumnsOpt => true
  | .AggregateOpt => true
  | .ReturnsOpt => true
  | .NotAggregateOpt => true
  | .NamedConnectionOpt => true
  | .ExternalSecurityOpt => true
  | .GrantToOpt => true
  | .TransformOpt => true
  | .InputOpt => true
  | .OutputOpt => true
  | .RemoteOpt => true
  | .ModelQueryOpt => true
  | .ReservationBodyOpt => true
  | .IfExistsOpt => true
  | .MaterializedOpt => true
  | .TableNameOpt => true
  | .DropModeOpt => true
  | .DefaultValueOpt => true
  | .IntoVarsOpt => true
  | .UsingArgsOpt => true
  | .HandlerOpt => true
  | .ElseOpt => true
  | .ExprOpt => true
  | .RaiseUsingOpt => true
  | .AssertAsOpt => true
  | .LoadPartitionsOpt => true
  | .RecursiveOpt => true
  | .OrderByOpt => true
  | .LimitOpt => true
  | .SetNameOpt => true
  | .OrdOpt => true
  | .PrivacyOpt => true
  | .SelModOpt => true
  | .SelAsOpt => true
  | .GroupByOpt => true
  | .HavingOpt => true
  | .QualifyOpt => true
  | .WindowOpt => true
  | .StarModOpt => true
  | .FrameOpt => true
  | .JoinCondOpt => true
  | .SystemTimeOpt => true
  | .TableOpOpt => true
  | .SampleOpt => true
  | .WithOffsetOpt => true
  | .TableArgsOpt => true
  | .PipeGroupByOpt => true
  | .UnpivotNullsOpt => true
  | .RowAliasOpt => true
  | .MeasuresOpt => true
  | .AfterMatchOpt => true
  | .OverOpt => true
  | .CaseElseOpt => true
  | .CastFormatOpt => true
  | .AtTimeZoneOpt => true
  | .DistinctOpt => true
  | .NullsModOpt => true
  | .AggLimitOpt => true

/-- The tables. -/
def tables : Tables := ⟨prodsT, firstT, nullableT⟩

end Verif.GI
