/-! Generated by tools/translate.py from /repo/src — names used by the deep embedding. -/
namespace Verif

/-- src/cst.rs lines 15-168: `enum NodeType`, all variants in order. -/
inductive NodeType
  | AccessOperator | AddColumnClause | AddConstraintClause | AggregatePipeOperator
  | AlterColumnStatement | AlterBICapacityStatement | AlterModelStatement
  | AlterOrganizationStatement | AlterTableDropClause | AlterProjectStatement
  | AlterReservationStatement | AlterSchemaStatement | AlterTableStatement
  | AlterVectorIndexStatement | AlterViewStatement | ArrayLiteral | AssertStatement | Asterisk
  | BasePipeOperator | BinaryOperator | BeginStatement | BetweenOperator | BooleanLiteral
  | BreakContinueStatement | CallingFunction | CallingTableFunction | CallingUnnest
  | CallStatement | Constraint | CaseExpr | CaseExprArm | CaseStatement | CaseStatementArm
  | CastArgument | CreateFunctionStatement | CreateIndexStatement | CreateModelStatement
  | CreateProcedureStatement | CreateReservationStatement | CreateRowAccessPolicyStatement
  | CreateSchemaStatement | CreateTableStatement | CreateViewStatement | Comment
  | DeclareStatement | DeleteStatement | DifferentialPrivacyClause | DotOperator | DropStatement
  | DropRowAccessPolicyStatement | ElseIfClause | EOF | EmptyStruct | ExecuteStatement
  | ExportDataStatement | ExportModelStatement | ExtractArgument | ForSystemTimeAsOfClause
  | ForStatement | FromStatement | FunctionChain | GrantStatement | GroupByExprs
  | GroupedIdentWithOptions | GroupedExpr | GroupedExprs | GroupedPattern | GroupedStatement
  | GroupedType | GroupedTypeDeclarationOrConstraints | Keyword | KeywordSequence
  | KeywordWithExpr | KeywordWithExprs | KeywordWithType | KeywordWithGroupedXXX
  | KeywordWithStatement | KeywordWithStatements | Identifier | IdentWithOptions | IfStatement
  | InsertStatement | IntervalLiteral | InOperator | IsDistinctFromOperator | JoinOperator
  | JoinPipeOperator | LimitClause | LimitPipeOperator | LoadStatement | LoopStatement
  | MatchRecognizeClause | MatchRecognizeConfig | MatchRecognizePipeOperator | MergeStatement
  | MultiTokenIdentifier | NumericLiteral | NullLiteral | OrPattern | OverClause
  | OverwritePartitionsClause | Parameter | Pattern | PatternClause | PatternQuantifier
  | PipeStatement | PivotConfig | PivotOperator | PivotPipeOperator | RaiseStatement
  | RangeLiteral | RenameColumnClause | RepeatStatement | RevokeStatement | SelectPipeOperator
  | SelectStatement | SetOperator | SetStatement | SingleTokenStatement | StringLiteral
  | StructLiteral | Symbol | TableSampleClause | TableSamplePipeOperator | TableSampleRatio
  | Template | TrainingDataCustomHolidayClause | TransactionStatement | TruncateStatement | Type
  | TypeDeclaration | UnaryOperator | Unknown | UndropStatement | UnionPipeOperator
  | UnpivotOperator | UnpivotPipeOperator | UnpivotConfig | UpdateStatement | WhenClause
  | WhileStatement | WindowClause | WindowExpr | WindowFrameClause | WindowSpecification
  | WithClause | WithOffsetClause | WithPipeOperator | WithPartitionColumnsClause | WithQuery
  | XXXByExprs
  deriving DecidableEq, Repr, Inhabited

/-- The child keys (strings) used by `push_node` / `push_node_vec` in src/parser.rs, in string order. -/
inductive Key
  | k_add | k_add_columns | k_add_constraints | k_aggregate | k_alias | k_alter_column_stmt
  | k_and | k_args | k_arms | k_as | k_as_struct_or_value | k_at_time_zone | k_between | k_by
  | k_by_target_or_source | k_cascade_or_restrict | k_cast_from | k_cast_to | k_clone
  | k_clusterby | k_collate | k_colon | k_column | k_column_group | k_column_name_list
  | k_column_schema_group | k_columns | k_comma | k_condition | k_config | k_connection
  | k_connection_name | k_constraint | k_corresponding | k_custom_holiday | k_data | k_data_type
  | k_date_part | k_declarations | k_default | k_default_collate | k_define | k_description
  | k_determinism | k_differential_privacy | k_distinct | k_distinct_or_all | k_do | k_drop
  | k_drop_columns | k_drop_default | k_drop_not_null | k_else | k_elseifs | k_end | k_end_case
  | k_end_for | k_end_if | k_end_loop | k_end_repeat | k_end_while | k_enforced | k_except
  | k_exception_when_error | k_expr | k_exprs | k_external | k_extract_datepart | k_extract_from
  | k_files | k_filter | k_for | k_for_system_time_as_of | k_format | k_frame | k_from
  | k_from_files | k_func | k_grant | k_group | k_groupby | k_grouped_expr | k_having | k_how
  | k_ident | k_idents | k_if_exists | k_if_not_exists | k_ignore_nulls | k_immediate | k_in
  | k_in_out | k_include_or_exclude_nulls | k_input | k_into | k_join_type | k_json
  | k_json_string | k_key | k_keywords | k_label | k_language | k_leading_comments
  | k_leading_label | k_left | k_like_or_copy | k_limit | k_match_recognize | k_matched
  | k_materialized | k_max | k_measures | k_method | k_min | k_name | k_next_keyword | k_not
  | k_not_null | k_null_order | k_offset | k_on | k_operation | k_options | k_or_replace | k_order
  | k_orderby | k_outer | k_output | k_over | k_overwrite | k_overwrite_partitions | k_parameter
  | k_partition_columns | k_partitionby | k_pattern | k_patterns | k_percent | k_pivot
  | k_primarykey | k_procedure | k_qualify | k_quantifier | k_queries | k_query | k_rbrace
  | k_recursive | k_references | k_remote | k_rename | k_rename_columns | k_replace
  | k_resource_type | k_result | k_returns | k_right | k_right_max | k_right_min | k_roles
  | k_row_value_alias | k_rparen | k_semicolon | k_set | k_skip_rule | k_snapshot | k_source_table
  | k_sql_expr | k_start | k_stmt | k_stmts | k_storing | k_suffixes | k_system
  | k_system_time_as_of | k_table | k_table_name | k_tablename | k_tablesample | k_target_name
  | k_temp | k_then | k_time_zone | k_to | k_to_date_part | k_trailing_comments
  | k_trailing_idents | k_trailing_label | k_training_data | k_training_data_custom_holiday
  | k_transaction | k_transform | k_type | k_type_declaration | k_unpivot | k_until | k_using
  | k_variable_type | k_what | k_whens | k_where | k_window | k_window_exprs | k_with
  | k_with_connection | k_with_offset | k_with_partition_columns
  deriving DecidableEq, Repr, Inhabited

/-- The string a key stands for (arguments of `push_node`, src/cst.rs 231-238, in src/parser.rs). -/
def Key.name : Key → List Char
  | .k_add => ['a', 'd', 'd']
  | .k_add_columns => ['a', 'd', 'd', '_', 'c', 'o', 'l', 'u', 'm', 'n', 's']
  | .k_add_constraints => ['a', 'd', 'd', '_', 'c', 'o', 'n', 's', 't', 'r', 'a', 'i', 'n', 't', 's']
  | .k_aggregate => ['a', 'g', 'g', 'r', 'e', 'g', 'a', 't', 'e']
  | .k_alias => ['a', 'l', 'i', 'a', 's']
  | .k_alter_column_stmt => ['a', 'l', 't', 'e', 'r', '_', 'c', 'o', 'l', 'u', 'm', 'n', '_', 's', 't', 'm', 't']
  | .k_and => ['a', 'n', 'd']
  | .k_args => ['a', 'r', 'g', 's']
  | .k_arms => ['a', 'r', 'm', 's']
  | .k_as => ['a', 's']
  | .k_as_struct_or_value => ['a', 's', '_', 's', 't', 'r', 'u', 'c', 't', '_', 'o', 'r', '_', 'v', 'a', 'l', 'u', 'e']
  | .k_at_time_zone => ['a', 't', '_', 't', 'i', 'm', 'e', '_', 'z', 'o', 'n', 'e']
  | .k_between => ['b', 'e', 't', 'w', 'e', 'e', 'n']
  | .k_by => ['b', 'y']
  | .k_by_target_or_source => ['b', 'y', '_', 't', 'a', 'r', 'g', 'e', 't', '_', 'o', 'r', '_', 's', 'o', 'u', 'r', 'c', 'e']
  | .k_cascade_or_restrict => ['c', 'a', 's', 'c', 'a', 'd', 'e', '_', 'o', 'r', '_', 'r', 'e', 's', 't', 'r', 'i', 'c', 't']
  | .k_cast_from => ['c', 'a', 's', 't', '_', 'f', 'r', 'o', 'm']
  | .k_cast_to => ['c', 'a', 's', 't', '_', 't', 'o']
  | .k_clone => ['c', 'l', 'o', 'n', 'e']
  | .k_clusterby => ['c', 'l', 'u', 's', 't', 'e', 'r', 'b', 'y']
  | .k_collate => ['c', 'o', 'l', 'l', 'a', 't', 'e']
  | .k_colon => ['c', 'o', 'l', 'o', 'n']
  | .k_column => ['c', 'o', 'l', 'u', 'm', 'n']
  | .k_column_group => ['c', 'o', 'l', 'u', 'm', 'n', '_', 'g', 'r', 'o', 'u', 'p']
  | .k_column_name_list => ['c', 'o', 'l', 'u', 'm', 'n', '_', 'n', 'a', 'm', 'e', '_', 'l', 'i', 's', 't']
  | .k_column_schema_group => ['c', 'o', 'l', 'u', 'm', 'n', '_', 's', 'c', 'h', 'e', 'm', 'a', '_', 'g', 'r', 'o', 'u', 'p']
  | .k_columns => ['c', 'o', 'l', 'u', 'm', 'n', 's']
  | .k_comma => ['c', 'o', 'm', 'm', 'a']
  | .k_condition => ['c', 'o', 'n', 'd', 'i', 't', 'i', 'o', 'n']
  | .k_config => ['c', 'o', 'n', 'f', 'i', 'g']
  | .k_connection => ['c', 'o', 'n', 'n', 'e', 'c', 't', 'i', 'o', 'n']
  | .k_connection_name => ['c', 'o', 'n', 'n', 'e', 'c', 't', 'i', 'o', 'n', '_', 'n', 'a', 'm', 'e']
  | .k_constraint => ['c', 'o', 'n', 's', 't', 'r', 'a', 'i', 'n', 't']
  | .k_corresponding => ['c', 'o', 'r', 'r', 'e', 's', 'p', 'o', 'n', 'd', 'i', 'n', 'g']
  | .k_custom_holiday => ['c', 'u', 's', 't', 'o', 'm', '_', 'h', 'o', 'l', 'i', 'd', 'a', 'y']
  | .k_data => ['d', 'a', 't', 'a']
  | .k_data_type => ['d', 'a', 't', 'a', '_', 't', 'y', 'p', 'e']
  | .k_date_part => ['d', 'a', 't', 'e', '_', 'p', 'a', 'r', 't']
  | .k_declarations => ['d', 'e', 'c', 'l', 'a', 'r', 'a', 't', 'i', 'o', 'n', 's']
  | .k_default => ['d', 'e', 'f', 'a', 'u', 'l', 't']
  | .k_default_collate => ['d', 'e', 'f', 'a', 'u', 'l', 't', '_', 'c', 'o', 'l', 'l', 'a', 't', 'e']
  | .k_define => ['d', 'e', 'f', 'i', 'n', 'e']
  | .k_description => ['d', 'e', 's', 'c', 'r', 'i', 'p', 't', 'i', 'o', 'n']
  | .k_determinism => ['d', 'e', 't', 'e', 'r', 'm', 'i', 'n', 'i', 's', 'm']
  | .k_differential_privacy => ['d', 'i', 'f', 'f', 'e', 'r', 'e', 'n', 't', 'i', 'a', 'l', '_', 'p', 'r', 'i', 'v', 'a', 'c', 'y']
  | .k_distinct => ['d', 'i', 's', 't', 'i', 'n', 'c', 't']
  | .k_distinct_or_all => ['d', 'i', 's', 't', 'i', 'n', 'c', 't', '_', 'o', 'r', '_', 'a', 'l', 'l']
  | .k_do => ['d', 'o']
  | .k_drop => ['d', 'r', 'o', 'p']
  | .k_drop_columns => ['d', 'r', 'o', 'p', '_', 'c', 'o', 'l', 'u', 'm', 'n', 's']
  | .k_drop_default => ['d', 'r', 'o', 'p', '_', 'd', 'e', 'f', 'a', 'u', 'l', 't']
  | .k_drop_not_null => ['d', 'r', 'o', 'p', '_', 'n', 'o', 't', '_', 'n', 'u', 'l', 'l']
  | .k_else => ['e', 'l', 's', 'e']
  | .k_elseifs => ['e', 'l', 's', 'e', 'i', 'f', 's']
  | .k_end => ['e', 'n', 'd']
  | .k_end_case => ['e', 'n', 'd', '_', 'c', 'a', 's', 'e']
  | .k_end_for => ['e', 'n', 'd', '_', 'f', 'o', 'r']
  | .k_end_if => ['e', 'n', 'd', '_', 'i', 'f']
  | .k_end_loop => ['e', 'n', 'd', '_', 'l', 'o', 'o', 'p']
  | .k_end_repeat => ['e', 'n', 'd', '_', 'r', 'e', 'p', 'e', 'a', 't']
  | .k_end_while => ['e', 'n', 'd', '_', 'w', 'h', 'i', 'l', 'e']
  | .k_enforced => ['e', 'n', 'f', 'o', 'r', 'c', 'e', 'd']
  | .k_except => ['e', 'x', 'c', 'e', 'p', 't']
  | .k_exception_when_error => ['e', 'x', 'c', 'e', 'p', 't', 'i', 'o', 'n', '_', 'w', 'h', 'e', 'n', '_', 'e', 'r', 'r', 'o', 'r']
  | .k_expr => ['e', 'x', 'p', 'r']
  | .k_exprs => ['e', 'x', 'p', 'r', 's']
  | .k_external => ['e', 'x', 't', 'e', 'r', 'n', 'a', 'l']
  | .k_extract_datepart => ['e', 'x', 't', 'r', 'a', 'c', 't', '_', 'd', 'a', 't', 'e', 'p', 'a', 'r', 't']
  | .k_extract_from => ['e', 'x', 't', 'r', 'a', 'c', 't', '_', 'f', 'r', 'o', 'm']
  | .k_files => ['f', 'i', 'l', 'e', 's']
  | .k_filter => ['f', 'i', 'l', 't', 'e', 'r']
  | .k_for => ['f', 'o', 'r']
  | .k_for_system_time_as_of => ['f', 'o', 'r', '_', 's', 'y', 's', 't', 'e', 'm', '_', 't', 'i', 'm', 'e', '_', 'a', 's', '_', 'o', 'f']
  | .k_format => ['f', 'o', 'r', 'm', 'a', 't']
  | .k_frame => ['f', 'r', 'a', 'm', 'e']
  | .k_from => ['f', 'r', 'o', 'm']
  | .k_from_files => ['f', 'r', 'o', 'm', '_', 'f', 'i', 'l', 'e', 's']
  | .k_func => ['f', 'u', 'n', 'c']
  | .k_grant => ['g', 'r', 'a', 'n', 't']
  | .k_group => ['g', 'r', 'o', 'u', 'p']
  | .k_groupby => ['g', 'r', 'o', 'u', 'p', 'b', 'y']
  | .k_grouped_expr => ['g', 'r', 'o', 'u', 'p', 'e', 'd', '_', 'e', 'x', 'p', 'r']
  | .k_having => ['h', 'a', 'v', 'i', 'n', 'g']
  | .k_how => ['h', 'o', 'w']
  | .k_ident => ['i', 'd', 'e', 'n', 't']
  | .k_idents => ['i', 'd', 'e', 'n', 't', 's']
  | .k_if_exists => ['i', 'f', '_', 'e', 'x', 'i', 's', 't', 's']
  | .k_if_not_exists => ['i', 'f', '_', 'n', 'o', 't', '_', 'e', 'x', 'i', 's', 't', 's']
  | .k_ignore_nulls => ['i', 'g', 'n', 'o', 'r', 'e', '_', 'n', 'u', 'l', 'l', 's']
  | .k_immediate => ['i', 'm', 'm', 'e', 'd', 'i', 'a', 't', 'e']
  | .k_in => ['i', 'n']
  | .k_in_out => ['i', 'n', '_', 'o', 'u', 't']
  | .k_include_or_exclude_nulls => ['i', 'n', 'c', 'l', 'u', 'd', 'e', '_', 'o', 'r', '_', 'e', 'x', 'c', 'l', 'u', 'd', 'e', '_', 'n', 'u', 'l', 'l', 's']
  | .k_input => ['i', 'n', 'p', 'u', 't']
  | .k_into => ['i', 'n', 't', 'o']
  | .k_join_type => ['j', 'o', 'i', 'n', '_', 't', 'y', 'p', 'e']
  | .k_json => ['j', 's', 'o', 'n']
  | .k_json_string => ['j', 's', 'o', 'n', '_', 's', 't', 'r', 'i', 'n', 'g']
  | .k_key => ['k', 'e', 'y']
  | .k_keywords => ['k', 'e', 'y', 'w', 'o', 'r', 'd', 's']
  | .k_label => ['l', 'a', 'b', 'e', 'l']
  | .k_language => ['l', 'a', 'n', 'g', 'u', 'a', 'g', 'e']
  | .k_leading_comments => ['l', 'e', 'a', 'd', 'i', 'n', 'g', '_', 'c', 'o', 'm', 'm', 'e', 'n', 't', 's']
  | .k_leading_label => ['l', 'e', 'a', 'd', 'i', 'n', 'g', '_', 'l', 'a', 'b', 'e', 'l']
  | .k_left => ['l', 'e', 'f', 't']
  | .k_like_or_copy => ['l', 'i', 'k', 'e', '_', 'o', 'r', '_', 'c', 'o', 'p', 'y']
  | .k_limit => ['l', 'i', 'm', 'i', 't']
  | .k_match_recognize => ['m', 'a', 't', 'c', 'h', '_', 'r', 'e', 'c', 'o', 'g', 'n', 'i', 'z', 'e']
  | .k_matched => ['m', 'a', 't', 'c', 'h', 'e', 'd']
  | .k_materialized => ['m', 'a', 't', 'e', 'r', 'i', 'a', 'l', 'i', 'z', 'e', 'd']
  | .k_max => ['m', 'a', 'x']
  | .k_measures => ['m', 'e', 'a', 's', 'u', 'r', 'e', 's']
  | .k_method => ['m', 'e', 't', 'h', 'o', 'd']
  | .k_min => ['m', 'i', 'n']
  | .k_name => ['n', 'a', 'm', 'e']
  | .k_next_keyword => ['n', 'e', 'x', 't', '_', 'k', 'e', 'y', 'w', 'o', 'r', 'd']
  | .k_not => ['n', 'o', 't']
  | .k_not_null => ['n', 'o', 't', '_', 'n', 'u', 'l', 'l']
  | .k_null_order => ['n', 'u', 'l', 'l', '_', 'o', 'r', 'd', 'e', 'r']
  | .k_offset => ['o', 'f', 'f', 's', 'e', 't']
  | .k_on => ['o', 'n']
  | .k_operation => ['o', 'p', 'e', 'r', 'a', 't', 'i', 'o', 'n']
  | .k_options => ['o', 'p', 't', 'i', 'o', 'n', 's']
  | .k_or_replace => ['o', 'r', '_', 'r', 'e', 'p', 'l', 'a', 'c', 'e']
  | .k_order => ['o', 'r', 'd', 'e', 'r']
  | .k_orderby => ['o', 'r', 'd', 'e', 'r', 'b', 'y']
  | .k_outer => ['o', 'u', 't', 'e', 'r']
  | .k_output => ['o', 'u', 't', 'p', 'u', 't']
  | .k_over => ['o', 'v', 'e', 'r']
  | .k_overwrite => ['o', 'v', 'e', 'r', 'w', 'r', 'i', 't', 'e']
  | .k_overwrite_partitions => ['o', 'v', 'e', 'r', 'w', 'r', 'i', 't', 'e', '_', 'p', 'a', 'r', 't', 'i', 't', 'i', 'o', 'n', 's']
  | .k_parameter => ['p', 'a', 'r', 'a', 'm', 'e', 't', 'e', 'r']
  | .k_partition_columns => ['p', 'a', 'r', 't', 'i', 't', 'i', 'o', 'n', '_', 'c', 'o', 'l', 'u', 'm', 'n', 's']
  | .k_partitionby => ['p', 'a', 'r', 't', 'i', 't', 'i', 'o', 'n', 'b', 'y']
  | .k_pattern => ['p', 'a', 't', 't', 'e', 'r', 'n']
  | .k_patterns => ['p', 'a', 't', 't', 'e', 'r', 'n', 's']
  | .k_percent => ['p', 'e', 'r', 'c', 'e', 'n', 't']
  | .k_pivot => ['p', 'i', 'v', 'o', 't']
  | .k_primarykey => ['p', 'r', 'i', 'm', 'a', 'r', 'y', 'k', 'e', 'y']
  | .k_procedure => ['p', 'r', 'o', 'c', 'e', 'd', 'u', 'r', 'e']
  | .k_qualify => ['q', 'u', 'a', 'l', 'i', 'f', 'y']
  | .k_quantifier => ['q', 'u', 'a', 'n', 't', 'i', 'f', 'i', 'e', 'r']
  | .k_queries => ['q', 'u', 'e', 'r', 'i', 'e', 's']
  | .k_query => ['q', 'u', 'e', 'r', 'y']
  | .k_rbrace => ['r', 'b', 'r', 'a', 'c', 'e']
  | .k_recursive => ['r', 'e', 'c', 'u', 'r', 's', 'i', 'v', 'e']
  | .k_references => ['r', 'e', 'f', 'e', 'r', 'e', 'n', 'c', 'e', 's']
  | .k_remote => ['r', 'e', 'm', 'o', 't', 'e']
  | .k_rename => ['r', 'e', 'n', 'a', 'm', 'e']
  | .k_rename_columns => ['r', 'e', 'n', 'a', 'm', 'e', '_', 'c', 'o', 'l', 'u', 'm', 'n', 's']
  | .k_replace => ['r', 'e', 'p', 'l', 'a', 'c', 'e']
  | .k_resource_type => ['r', 'e', 's', 'o', 'u', 'r', 'c', 'e', '_', 't', 'y', 'p', 'e']
  | .k_result => ['r', 'e', 's', 'u', 'l', 't']
  | .k_returns => ['r', 'e', 't', 'u', 'r', 'n', 's']
  | .k_right => ['r', 'i', 'g', 'h', 't']
  | .k_right_max => ['r', 'i', 'g', 'h', 't', '_', 'm', 'a', 'x']
  | .k_right_min => ['r', 'i', 'g', 'h', 't', '_', 'm', 'i', 'n']
  | .k_roles => ['r', 'o', 'l', 'e', 's']
  | .k_row_value_alias => ['r', 'o', 'w', '_', 'v', 'a', 'l', 'u', 'e', '_', 'a', 'l', 'i', 'a', 's']
  | .k_rparen => ['r', 'p', 'a', 'r', 'e', 'n']
  | .k_semicolon => ['s', 'e', 'm', 'i', 'c', 'o', 'l', 'o', 'n']
  | .k_set => ['s', 'e', 't']
  | .k_skip_rule => ['s', 'k', 'i', 'p', '_', 'r', 'u', 'l', 'e']
  | .k_snapshot => ['s', 'n', 'a', 'p', 's', 'h', 'o', 't']
  | .k_source_table => ['s', 'o', 'u', 'r', 'c', 'e', '_', 't', 'a', 'b', 'l', 'e']
  | .k_sql_expr => ['s', 'q', 'l', '_', 'e', 'x', 'p', 'r']
  | .k_start => ['s', 't', 'a', 'r', 't']
  | .k_stmt => ['s', 't', 'm', 't']
  | .k_stmts => ['s', 't', 'm', 't', 's']
  | .k_storing => ['s', 't', 'o', 'r', 'i', 'n', 'g']
  | .k_suffixes => ['s', 'u', 'f', 'f', 'i', 'x', 'e', 's']
  | .k_system => ['s', 'y', 's', 't', 'e', 'm']
  | .k_system_time_as_of => ['s', 'y', 's', 't', 'e', 'm', '_', 't', 'i', 'm', 'e', '_', 'a', 's', '_', 'o', 'f']
  | .k_table => ['t', 'a', 'b', 'l', 'e']
  | .k_table_name => ['t', 'a', 'b', 'l', 'e', '_', 'n', 'a', 'm', 'e']
  | .k_tablename => ['t', 'a', 'b', 'l', 'e', 'n', 'a', 'm', 'e']
  | .k_tablesample => ['t', 'a', 'b', 'l', 'e', 's', 'a', 'm', 'p', 'l', 'e']
  | .k_target_name => ['t', 'a', 'r', 'g', 'e', 't', '_', 'n', 'a', 'm', 'e']
  | .k_temp => ['t', 'e', 'm', 'p']
  | .k_then => ['t', 'h', 'e', 'n']
  | .k_time_zone => ['t', 'i', 'm', 'e', '_', 'z', 'o', 'n', 'e']
  | .k_to => ['t', 'o']
  | .k_to_date_part => ['t', 'o', '_', 'd', 'a', 't', 'e', '_', 'p', 'a', 'r', 't']
  | .k_trailing_comments => ['t', 'r', 'a', 'i', 'l', 'i', 'n', 'g', '_', 'c', 'o', 'm', 'm', 'e', 'n', 't', 's']
  | .k_trailing_idents => ['t', 'r', 'a', 'i', 'l', 'i', 'n', 'g', '_', 'i', 'd', 'e', 'n', 't', 's']
  | .k_trailing_label => ['t', 'r', 'a', 'i', 'l', 'i', 'n', 'g', '_', 'l', 'a', 'b', 'e', 'l']
  | .k_training_data => ['t', 'r', 'a', 'i', 'n', 'i', 'n', 'g', '_', 'd', 'a', 't', 'a']
  | .k_training_data_custom_holiday => ['t', 'r', 'a', 'i', 'n', 'i', 'n', 'g', '_', 'd', 'a', 't', 'a', '_', 'c', 'u', 's', 't', 'o', 'm', '_', 'h', 'o', 'l', 'i', 'd', 'a', 'y']
  | .k_transaction => ['t', 'r', 'a', 'n', 's', 'a', 'c', 't', 'i', 'o', 'n']
  | .k_transform => ['t', 'r', 'a', 'n', 's', 'f', 'o', 'r', 'm']
  | .k_type => ['t', 'y', 'p', 'e']
  | .k_type_declaration => ['t', 'y', 'p', 'e', '_', 'd', 'e', 'c', 'l', 'a', 'r', 'a', 't', 'i', 'o', 'n']
  | .k_unpivot => ['u', 'n', 'p', 'i', 'v', 'o', 't']
  | .k_until => ['u', 'n', 't', 'i', 'l']
  | .k_using => ['u', 's', 'i', 'n', 'g']
  | .k_variable_type => ['v', 'a', 'r', 'i', 'a', 'b', 'l', 'e', '_', 't', 'y', 'p', 'e']
  | .k_what => ['w', 'h', 'a', 't']
  | .k_whens => ['w', 'h', 'e', 'n', 's']
  | .k_where => ['w', 'h', 'e', 'r', 'e']
  | .k_window => ['w', 'i', 'n', 'd', 'o', 'w']
  | .k_window_exprs => ['w', 'i', 'n', 'd', 'o', 'w', '_', 'e', 'x', 'p', 'r', 's']
  | .k_with => ['w', 'i', 't', 'h']
  | .k_with_connection => ['w', 'i', 't', 'h', '_', 'c', 'o', 'n', 'n', 'e', 'c', 't', 'i', 'o', 'n']
  | .k_with_offset => ['w', 'i', 't', 'h', '_', 'o', 'f', 'f', 's', 'e', 't']
  | .k_with_partition_columns => ['w', 'i', 't', 'h', '_', 'p', 'a', 'r', 't', 'i', 't', 'i', 'o', 'n', '_', 'c', 'o', 'l', 'u', 'm', 'n', 's']

/-- The string constants compared with token literals in src/parser.rs and src/constants.rs (upper-cased). -/
inductive Kw
  | sym_ne | sym_amp | sym_lparen | sym_rparen | sym_star | sym_plus | sym_comma | sym_minus
  | sym_dot | sym_slash | sym_semi | sym_lt | sym_shl | sym_le | sym_ltgt | sym_eq | sym_arrow
  | sym_gt | sym_ge | sym_shr | sym_quest | ADD | AFTER | AGGREGATE | ALL | ALTER | AND | ANY
  | ARRAY | AS | ASC | ASSERT | ASSERT_ROWS_MODIFIED | ASSIGNMENT | AT | B | BEGIN | BETWEEN
  | BIGDECIMAL | BIGNUMERIC | BI_CAPACITY | BR | BREAK | BY | CALL | CAPACITY | CASCADE | CASE
  | CAST | CLONE | CLUSTER | COLLATE | COLUMN | COMMIT | CONNECTION | CONSTRAINT | CONTAINS
  | CONTINUE | COPY | CORRESPONDING | CREATE | CROSS | CUBE | CURRENT | DATA | DATE | DATETIME
  | DECIMAL | DECLARE | DEFAULT | DEFINE | DELETE | DESC | DETERMINISTIC | DISTINCT | DROP | ELSE
  | ELSEIF | END | ENFORCED | ENUM | ESCAPE | EXCEPT | EXCEPTION | EXCLUDE | EXECUTE | EXISTS
  | EXPORT | EXTEND | EXTERNAL | EXTRACT | FALSE | FETCH | FIRST | FOLLOWING | FOR | FOREIGN
  | FORMAT | FROM | FULL | FUNCTION | GRANT | GROUP | GROUPING | GROUPS | HASH | HAVING | IF
  | IGNORE | IN | INCLUDE | INNER | INOUT | INPUT | INSERT | INTERSECT | INTERVAL | INTO | IS
  | ITERATE | JOIN | JSON | KEY | LANGUAGE | LAST | LATERAL | LEAVE | LEFT | LIKE | LIMIT | LOAD
  | LOOKUP | LOOP | MATCH_RECOGNIZE | MATERIALIZED | MEASURES | MERGE | MODEL | NATURAL | NEW | NO
  | NOT | NULL | NULLS | NUMERIC | OF | OFFSET | ON | OPTIONS | OR | ORDER | ORGANIZATION | OUT
  | OUTER | OUTPUT | OVER | OVERWRITE | PARTITION | PARTITIONS | PATTERN | PIVOT | PRECEDING
  | PRIMARY | PROCEDURE | PROJECT | PROTO | QUALIFY | R | RAISE | RANGE | RB | RECURSIVE
  | REFERENCES | REMOTE | RENAME | REPEAT | REPLACE | REPLICA | RESERVATION | RESPECT | RESTRICT
  | RETURN | RETURNS | REVOKE | RIGHT | ROLLBACK | ROLLUP | ROW | ROWS | SAFE_CAST | SCHEMA
  | SEARCH | SELECT | SET | SNAPSHOT | SOME | STORING | STRICT | STRUCT | TABLE | TABLESAMPLE
  | TEMP | TEMPORARY | THEN | TIME | TIMESTAMP | TO | TRAINING_DATA | TRANSACTION | TRANSFORM
  | TREAT | TRUE | TRUNCATE | TYPE | UNBOUNDED | UNDROP | UNION | UNNEST | UNPIVOT | UNTIL
  | UPDATE | USING | VALUES | VECTOR | VIEW | WHEN | WHERE | WHILE | WINDOW | WITH | WITHIN
  | sym_lbrack | sym_rbrack | sym_caret | sym_lbrace | sym_bar | sym_pipe | sym_concat | sym_tilde
  deriving DecidableEq, Repr, Inhabited

/-- The string a `Kw` stands for (string constants of src/parser.rs and src/constants.rs). -/
def Kw.lit : Kw → List Char
  | .sym_ne => ['!', '=']
  | .sym_amp => ['&']
  | .sym_lparen => ['(']
  | .sym_rparen => [')']
  | .sym_star => ['*']
  | .sym_plus => ['+']
  | .sym_comma => [',']
  | .sym_minus => ['-']
  | .sym_dot => ['.']
  | .sym_slash => ['/']
  | .sym_semi => [';']
  | .sym_lt => ['<']
  | .sym_shl => ['<', '<']
  | .sym_le => ['<', '=']
  | .sym_ltgt => ['<', '>']
  | .sym_eq => ['=']
  | .sym_arrow => ['=', '>']
  | .sym_gt => ['>']
  | .sym_ge => ['>', '=']
  | .sym_shr => ['>', '>']
  | .sym_quest => ['?']
  | .ADD => ['A', 'D', 'D']
  | .AFTER => ['A', 'F', 'T', 'E', 'R']
  | .AGGREGATE => ['A', 'G', 'G', 'R', 'E', 'G', 'A', 'T', 'E']
  | .ALL => ['A', 'L', 'L']
  | .ALTER => ['A', 'L', 'T', 'E', 'R']
  | .AND => ['A', 'N', 'D']
  | .ANY => ['A', 'N', 'Y']
  | .ARRAY => ['A', 'R', 'R', 'A', 'Y']
  | .AS => ['A', 'S']
  | .ASC => ['A', 'S', 'C']
  | .ASSERT => ['A', 'S', 'S', 'E', 'R', 'T']
  | .ASSERT_ROWS_MODIFIED => ['A', 'S', 'S', 'E', 'R', 'T', '_', 'R', 'O', 'W', 'S', '_', 'M', 'O', 'D', 'I', 'F', 'I', 'E', 'D']
  | .ASSIGNMENT => ['A', 'S', 'S', 'I', 'G', 'N', 'M', 'E', 'N', 'T']
  | .AT => ['A', 'T']
  | .B => ['B']
  | .BEGIN => ['B', 'E', 'G', 'I', 'N']
  | .BETWEEN => ['B', 'E', 'T', 'W', 'E', 'E', 'N']
  | .BIGDECIMAL => ['B', 'I', 'G', 'D', 'E', 'C', 'I', 'M', 'A', 'L']
  | .BIGNUMERIC => ['B', 'I', 'G', 'N', 'U', 'M', 'E', 'R', 'I', 'C']
  | .BI_CAPACITY => ['B', 'I', '_', 'C', 'A', 'P', 'A', 'C', 'I', 'T', 'Y']
  | .BR => ['B', 'R']
  | .BREAK => ['B', 'R', 'E', 'A', 'K']
  | .BY => ['B', 'Y']
  | .CALL => ['C', 'A', 'L', 'L']
  | .CAPACITY => ['C', 'A', 'P', 'A', 'C', 'I', 'T', 'Y']
  | .CASCADE => ['C', 'A', 'S', 'C', 'A', 'D', 'E']
  | .CASE => ['C', 'A', 'S', 'E']
  | .CAST => ['C', 'A', 'S', 'T']
  | .CLONE => ['C', 'L', 'O', 'N', 'E']
  | .CLUSTER => ['C', 'L', 'U', 'S', 'T', 'E', 'R']
  | .COLLATE => ['C', 'O', 'L', 'L', 'A', 'T', 'E']
  | .COLUMN => ['C', 'O', 'L', 'U', 'M', 'N']
  | .COMMIT => ['C', 'O', 'M', 'M', 'I', 'T']
  | .CONNECTION => ['C', 'O', 'N', 'N', 'E', 'C', 'T', 'I', 'O', 'N']
  | .CONSTRAINT => ['C', 'O', 'N', 'S', 'T', 'R', 'A', 'I', 'N', 'T']
  | .CONTAINS => ['C', 'O', 'N', 'T', 'A', 'I', 'N', 'S']
  | .CONTINUE => ['C', 'O', 'N', 'T', 'I', 'N', 'U', 'E']
  | .COPY => ['C', 'O', 'P', 'Y']
  | .CORRESPONDING => ['C', 'O', 'R', 'R', 'E', 'S', 'P', 'O', 'N', 'D', 'I', 'N', 'G']
  | .CREATE => ['C', 'R', 'E', 'A', 'T', 'E']
  | .CROSS => ['C', 'R', 'O', 'S', 'S']
  | .CUBE => ['C', 'U', 'B', 'E']
  | .CURRENT => ['C', 'U', 'R', 'R', 'E', 'N', 'T']
  | .DATA => ['D', 'A', 'T', 'A']
  | .DATE => ['D', 'A', 'T', 'E']
  | .DATETIME => ['D', 'A', 'T', 'E', 'T', 'I', 'M', 'E']
  | .DECIMAL => ['D', 'E', 'C', 'I', 'M', 'A', 'L']
  | .DECLARE => ['D', 'E', 'C', 'L', 'A', 'R', 'E']
  | .DEFAULT => ['D', 'E', 'F', 'A', 'U', 'L', 'T']
  | .DEFINE => ['D', 'E', 'F', 'I', 'N', 'E']
  | .DELETE => ['D', 'E', 'L', 'E', 'T', 'E']
  | .DESC => ['D', 'E', 'S', 'C']
  | .DETERMINISTIC => ['D', 'E', 'T', 'E', 'R', 'M', 'I', 'N', 'I', 'S', 'T', 'I', 'C']
  | .DISTINCT => ['D', 'I', 'S', 'T', 'I', 'N', 'C', 'T']
  | .DROP => ['D', 'R', 'O', 'P']
  | .ELSE => ['E', 'L', 'S', 'E']
  | .ELSEIF => ['E', 'L', 'S', 'E', 'I', 'F']
  | .END => ['E', 'N', 'D']
  | .ENFORCED => ['E', 'N', 'F', 'O', 'R', 'C', 'E', 'D']
  | .ENUM => ['E', 'N', 'U', 'M']
  | .ESCAPE => ['E', 'S', 'C', 'A', 'P', 'E']
  | .EXCEPT => ['E', 'X', 'C', 'E', 'P', 'T']
  | .EXCEPTION => ['E', 'X', 'C', 'E', 'P', 'T', 'I', 'O', 'N']
  | .EXCLUDE => ['E', 'X', 'C', 'L', 'U', 'D', 'E']
  | .EXECUTE => ['E', 'X', 'E', 'C', 'U', 'T', 'E']
  | .EXISTS => ['E', 'X', 'I', 'S', 'T', 'S']
  | .EXPORT => ['E', 'X', 'P', 'O', 'R', 'T']
  | .EXTEND => ['E', 'X', 'T', 'E', 'N', 'D']
  | .EXTERNAL => ['E', 'X', 'T', 'E', 'R', 'N', 'A', 'L']
  | .EXTRACT => ['E', 'X', 'T', 'R', 'A', 'C', 'T']
  | .FALSE => ['F', 'A', 'L', 'S', 'E']
  | .FETCH => ['F', 'E', 'T', 'C', 'H']
  | .FIRST => ['F', 'I', 'R', 'S', 'T']
  | .FOLLOWING => ['F', 'O', 'L', 'L', 'O', 'W', 'I', 'N', 'G']
  | .FOR => ['F', 'O', 'R']
  | .FOREIGN => ['F', 'O', 'R', 'E', 'I', 'G', 'N']
  | .FORMAT => ['F', 'O', 'R', 'M', 'A', 'T']
  | .FROM => ['F', 'R', 'O', 'M']
  | .FULL => ['F', 'U', 'L', 'L']
  | .FUNCTION => ['F', 'U', 'N', 'C', 'T', 'I', 'O', 'N']
  | .GRANT => ['G', 'R', 'A', 'N', 'T']
  | .GROUP => ['G', 'R', 'O', 'U', 'P']
  | .GROUPING => ['G', 'R', 'O', 'U', 'P', 'I', 'N', 'G']
  | .GROUPS => ['G', 'R', 'O', 'U', 'P', 'S']
  | .HASH => ['H', 'A', 'S', 'H']
  | .HAVING => ['H', 'A', 'V', 'I', 'N', 'G']
  | .IF => ['I', 'F']
  | .IGNORE => ['I', 'G', 'N', 'O', 'R', 'E']
  | .IN => ['I', 'N']
  | .INCLUDE => ['I', 'N', 'C', 'L', 'U', 'D', 'E']
  | .INNER => ['I', 'N', 'N', 'E', 'R']
  | .INOUT => ['I', 'N', 'O', 'U', 'T']
  | .INPUT => ['I', 'N', 'P', 'U', 'T']
  | .INSERT => ['I', 'N', 'S', 'E', 'R', 'T']
  | .INTERSECT => ['I', 'N', 'T', 'E', 'R', 'S', 'E', 'C', 'T']
  | .INTERVAL => ['I', 'N', 'T', 'E', 'R', 'V', 'A', 'L']
  | .INTO => ['I', 'N', 'T', 'O']
  | .IS => ['I', 'S']
  | .ITERATE => ['I', 'T', 'E', 'R', 'A', 'T', 'E']
  | .JOIN => ['J', 'O', 'I', 'N']
  | .JSON => ['J', 'S', 'O', 'N']
  | .KEY => ['K', 'E', 'Y']
  | .LANGUAGE => ['L', 'A', 'N', 'G', 'U', 'A', 'G', 'E']
  | .LAST => ['L', 'A', 'S', 'T']
  | .LATERAL => ['L', 'A', 'T', 'E', 'R', 'A', 'L']
  | .LEAVE => ['L', 'E', 'A', 'V', 'E']
  | .LEFT => ['L', 'E', 'F', 'T']
  | .LIKE => ['L', 'I', 'K', 'E']
  | .LIMIT => ['L', 'I', 'M', 'I', 'T']
  | .LOAD => ['L', 'O', 'A', 'D']
  | .LOOKUP => ['L', 'O', 'O', 'K', 'U', 'P']
  | .LOOP => ['L', 'O', 'O', 'P']
  | .MATCH_RECOGNIZE => ['M', 'A', 'T', 'C', 'H', '_', 'R', 'E', 'C', 'O', 'G', 'N', 'I', 'Z', 'E']
  | .MATERIALIZED => ['M', 'A', 'T', 'E', 'R', 'I', 'A', 'L', 'I', 'Z', 'E', 'D']
  | .MEASURES => ['M', 'E', 'A', 'S', 'U', 'R', 'E', 'S']
  | .MERGE => ['M', 'E', 'R', 'G', 'E']
  | .MODEL => ['M', 'O', 'D', 'E', 'L']
  | .NATURAL => ['N', 'A', 'T', 'U', 'R', 'A', 'L']
  | .NEW => ['N', 'E', 'W']
  | .NO => ['N', 'O']
  | .NOT => ['N', 'O', 'T']
  | .NULL => ['N', 'U', 'L', 'L']
  | .NULLS => ['N', 'U', 'L', 'L', 'S']
  | .NUMERIC => ['N', 'U', 'M', 'E', 'R', 'I', 'C']
  | .OF => ['O', 'F']
  | .OFFSET => ['O', 'F', 'F', 'S', 'E', 'T']
  | .ON => ['O', 'N']
  | .OPTIONS => ['O', 'P', 'T', 'I', 'O', 'N', 'S']
  | .OR => ['O', 'R']
  | .ORDER => ['O', 'R', 'D', 'E', 'R']
  | .ORGANIZATION => ['O', 'R', 'G', 'A', 'N', 'I', 'Z', 'A', 'T', 'I', 'O', 'N']
  | .OUT => ['O', 'U', 'T']
  | .OUTER => ['O', 'U', 'T', 'E', 'R']
  | .OUTPUT => ['O', 'U', 'T', 'P', 'U', 'T']
  | .OVER => ['O', 'V', 'E', 'R']
  | .OVERWRITE => ['O', 'V', 'E', 'R', 'W', 'R', 'I', 'T', 'E']
  | .PARTITION => ['P', 'A', 'R', 'T', 'I', 'T', 'I', 'O', 'N']
  | .PARTITIONS => ['P', 'A', 'R', 'T', 'I', 'T', 'I', 'O', 'N', 'S']
  | .PATTERN => ['P', 'A', 'T', 'T', 'E', 'R', 'N']
  | .PIVOT => ['P', 'I', 'V', 'O', 'T']
  | .PRECEDING => ['P', 'R', 'E', 'C', 'E', 'D', 'I', 'N', 'G']
  | .PRIMARY => ['P', 'R', 'I', 'M', 'A', 'R', 'Y']
  | .PROCEDURE => ['P', 'R', 'O', 'C', 'E', 'D', 'U', 'R', 'E']
  | .PROJECT => ['P', 'R', 'O', 'J', 'E', 'C', 'T']
  | .PROTO => ['P', 'R', 'O', 'T', 'O']
  | .QUALIFY => ['Q', 'U', 'A', 'L', 'I', 'F', 'Y']
  | .R => ['R']
  | .RAISE => ['R', 'A', 'I', 'S', 'E']
  | .RANGE => ['R', 'A', 'N', 'G', 'E']
  | .RB => ['R', 'B']
  | .RECURSIVE => ['R', 'E', 'C', 'U', 'R', 'S', 'I', 'V', 'E']
  | .REFERENCES => ['R', 'E', 'F', 'E', 'R', 'E', 'N', 'C', 'E', 'S']
  | .REMOTE => ['R', 'E', 'M', 'O', 'T', 'E']
  | .RENAME => ['R', 'E', 'N', 'A', 'M', 'E']
  | .REPEAT => ['R', 'E', 'P', 'E', 'A', 'T']
  | .REPLACE => ['R', 'E', 'P', 'L', 'A', 'C', 'E']
  | .REPLICA => ['R', 'E', 'P', 'L', 'I', 'C', 'A']
  | .RESERVATION => ['R', 'E', 'S', 'E', 'R', 'V', 'A', 'T', 'I', 'O', 'N']
  | .RESPECT => ['R', 'E', 'S', 'P', 'E', 'C', 'T']
  | .RESTRICT => ['R', 'E', 'S', 'T', 'R', 'I', 'C', 'T']
  | .RETURN => ['R', 'E', 'T', 'U', 'R', 'N']
  | .RETURNS => ['R', 'E', 'T', 'U', 'R', 'N', 'S']
  | .REVOKE => ['R', 'E', 'V', 'O', 'K', 'E']
  | .RIGHT => ['R', 'I', 'G', 'H', 'T']
  | .ROLLBACK => ['R', 'O', 'L', 'L', 'B', 'A', 'C', 'K']
  | .ROLLUP => ['R', 'O', 'L', 'L', 'U', 'P']
  | .ROW => ['R', 'O', 'W']
  | .ROWS => ['R', 'O', 'W', 'S']
  | .SAFE_CAST => ['S', 'A', 'F', 'E', '_', 'C', 'A', 'S', 'T']
  | .SCHEMA => ['S', 'C', 'H', 'E', 'M', 'A']
  | .SEARCH => ['S', 'E', 'A', 'R', 'C', 'H']
  | .SELECT => ['S', 'E', 'L', 'E', 'C', 'T']
  | .SET => ['S', 'E', 'T']
  | .SNAPSHOT => ['S', 'N', 'A', 'P', 'S', 'H', 'O', 'T']
  | .SOME => ['S', 'O', 'M', 'E']
  | .STORING => ['S', 'T', 'O', 'R', 'I', 'N', 'G']
  | .STRICT => ['S', 'T', 'R', 'I', 'C', 'T']
  | .STRUCT => ['S', 'T', 'R', 'U', 'C', 'T']
  | .TABLE => ['T', 'A', 'B', 'L', 'E']
  | .TABLESAMPLE => ['T', 'A', 'B', 'L', 'E', 'S', 'A', 'M', 'P', 'L', 'E']
  | .TEMP => ['T', 'E', 'M', 'P']
  | .TEMPORARY => ['T', 'E', 'M', 'P', 'O', 'R', 'A', 'R', 'Y']
  | .THEN => ['T', 'H', 'E', 'N']
  | .TIME => ['T', 'I', 'M', 'E']
  | .TIMESTAMP => ['T', 'I', 'M', 'E', 'S', 'T', 'A', 'M', 'P']
  | .TO => ['T', 'O']
  | .TRAINING_DATA => ['T', 'R', 'A', 'I', 'N', 'I', 'N', 'G', '_', 'D', 'A', 'T', 'A']
  | .TRANSACTION => ['T', 'R', 'A', 'N', 'S', 'A', 'C', 'T', 'I', 'O', 'N']
  | .TRANSFORM => ['T', 'R', 'A', 'N', 'S', 'F', 'O', 'R', 'M']
  | .TREAT => ['T', 'R', 'E', 'A', 'T']
  | .TRUE => ['T', 'R', 'U', 'E']
  | .TRUNCATE => ['T', 'R', 'U', 'N', 'C', 'A', 'T', 'E']
  | .TYPE => ['T', 'Y', 'P', 'E']
  | .UNBOUNDED => ['U', 'N', 'B', 'O', 'U', 'N', 'D', 'E', 'D']
  | .UNDROP => ['U', 'N', 'D', 'R', 'O', 'P']
  | .UNION => ['U', 'N', 'I', 'O', 'N']
  | .UNNEST => ['U', 'N', 'N', 'E', 'S', 'T']
  | .UNPIVOT => ['U', 'N', 'P', 'I', 'V', 'O', 'T']
  | .UNTIL => ['U', 'N', 'T', 'I', 'L']
  | .UPDATE => ['U', 'P', 'D', 'A', 'T', 'E']
  | .USING => ['U', 'S', 'I', 'N', 'G']
  | .VALUES => ['V', 'A', 'L', 'U', 'E', 'S']
  | .VECTOR => ['V', 'E', 'C', 'T', 'O', 'R']
  | .VIEW => ['V', 'I', 'E', 'W']
  | .WHEN => ['W', 'H', 'E', 'N']
  | .WHERE => ['W', 'H', 'E', 'R', 'E']
  | .WHILE => ['W', 'H', 'I', 'L', 'E']
  | .WINDOW => ['W', 'I', 'N', 'D', 'O', 'W']
  | .WITH => ['W', 'I', 'T', 'H']
  | .WITHIN => ['W', 'I', 'T', 'H', 'I', 'N']
  | .sym_lbrack => ['[']
  | .sym_rbrack => [']']
  | .sym_caret => ['^']
  | .sym_lbrace => ['{']
  | .sym_bar => ['|']
  | .sym_pipe => ['|', '>']
  | .sym_concat => ['|', '|']
  | .sym_tilde => ['~']

/-- src/constants.rs: `KEYWORDS`, in order. -/
def reservedKeywords : List Kw := [
  .ALL, .AND, .ANY, .ARRAY, .AS, .ASC, .ASSERT_ROWS_MODIFIED, .AT,
  .BETWEEN, .BY, .CASE, .CAST, .COLLATE, .CONTAINS, .CREATE, .CROSS,
  .CUBE, .CURRENT, .DEFAULT, .DEFINE, .DESC, .DISTINCT, .ELSE, .END,
  .ENUM, .ESCAPE, .EXCEPT, .EXCLUDE, .EXISTS, .EXTRACT, .FALSE, .FETCH,
  .FOLLOWING, .FOR, .FROM, .FULL, .GROUP, .GROUPING, .GROUPS, .HASH,
  .HAVING, .IF, .IGNORE, .IN, .INNER, .INTERSECT, .INTERVAL, .INTO,
  .IS, .JOIN, .LATERAL, .LEFT, .LIKE, .LIMIT, .LOOKUP, .MERGE,
  .NATURAL, .NEW, .NO, .NOT, .NULL, .NULLS, .OF, .ON,
  .OR, .ORDER, .OUTER, .OVER, .PARTITION, .PRECEDING, .PROTO, .QUALIFY,
  .RANGE, .RECURSIVE, .RESPECT, .RIGHT, .ROLLUP, .ROWS, .SELECT, .SET,
  .SOME, .STRUCT, .TABLESAMPLE, .THEN, .TO, .TREAT, .TRUE, .UNBOUNDED,
  .UNION, .UNNEST, .USING, .WHEN, .WHERE, .WINDOW, .WITH, .WITHIN]

/-- The `parse_*` functions of src/parser.rs (the nested helper of `parse_identifier` included). -/
inductive Fn
  | parse_between_operator | parse_binary_operator | parse_constraint | parse_cte | parse_enforced
  | parse_expr | parse_exprs | parse_grouped_exprs | parse_grouped_type_declaration_or_constraints
  | parse_identifier | parse_single_or_multi_token_identifier | parse_in_operator
  | parse_is_distinct_from_operator | parse_keyword_with_grouped_exprs
  | parse_keyword_with_statements | parse_n_keywords | parse_set_operator | parse_statement
  | parse_table | parse_type | parse_window_expr | parse_with_connection_clause
  | parse_with_clause | parse_window_clause | parse_xxxby_exprs | parse_groupby_exprs
  | parse_table_sample_ratio | parse_pivot_config_clause | parse_unpivot_config_clause
  | parse_match_recognize_clause | parse_match_recognize_config | parse_by_name_clause
  | parse_pattern_clause | parse_grouped_pattern | parse_pattern | parse_quantifier
  | parse_corresponding_clause | push_trailing_alias | parse_select_statement
  | parse_from_statement | parse_pipe_statement | parse_select_pipe_operator
  | parse_limit_pipe_operator | parse_aggregate_pipe_operator | parse_union_pipe_operator
  | parse_join_pipe_operator | parse_tablesample_pipe_operator | parse_pivot_pipe_operator
  | parse_unpivot_pipe_operator | parse_with_pipe_operator | parse_match_recognize_pipe_operator
  | parse_base_pipe_operator | parse_insert_statement | parse_delete_statement
  | parse_truncate_statement | parse_update_statement | parse_merge_statement
  | parse_create_schema_statement | parse_create_search_index_statement
  | parse_create_table_statement | parse_create_view_statement | parse_create_function_statement
  | parse_create_procedure_statement | parse_create_row_access_policy_statement
  | parse_create_model_statement | parse_alter_schema_statement | parse_alter_table_statement
  | parse_alter_column_statement | parse_alter_vector_index_statement | parse_alter_view_statement
  | parse_alter_organization_statement | parse_alter_project_statement
  | parse_alter_bicapacity_statement | parse_alter_reservation_statement
  | parse_alter_model_statement | parse_drop_row_access_policy_statement
  | parse_drop_statement_general | parse_undrop_statement | parse_grant_statement
  | parse_revoke_statement | parse_create_reservation_statement | parse_declare_statement
  | parse_set_statement | parse_execute_statement | parse_begin_statement | parse_if_statement
  | parse_labeled_statement | parse_break_continue_statement | parse_loop_statement
  | parse_repeat_statement | parse_while_statement | parse_single_token_statement
  | parse_for_statement | parse_transaction_statement | parse_raise_statement
  | parse_case_statement | parse_call_statement | parse_assert_satement
  | parse_export_data_statement | parse_export_model_statement | parse_load_statement
  deriving DecidableEq, Repr, Inhabited

/-- All node types, src/cst.rs 16-168. -/
def NodeType.all : List NodeType := [.AccessOperator, .AddColumnClause, .AddConstraintClause, .AggregatePipeOperator, .AlterColumnStatement, .AlterBICapacityStatement, .AlterModelStatement, .AlterOrganizationStatement, .AlterTableDropClause, .AlterProjectStatement, .AlterReservationStatement, .AlterSchemaStatement, .AlterTableStatement, .AlterVectorIndexStatement, .AlterViewStatement, .ArrayLiteral, .AssertStatement, .Asterisk, .BasePipeOperator, .BinaryOperator, .BeginStatement, .BetweenOperator, .BooleanLiteral, .BreakContinueStatement, .CallingFunction, .CallingTableFunction, .CallingUnnest, .CallStatement, .Constraint, .CaseExpr, .CaseExprArm, .CaseStatement, .CaseStatementArm, .CastArgument, .CreateFunctionStatement, .CreateIndexStatement, .CreateModelStatement, .CreateProcedureStatement, .CreateReservationStatement, .CreateRowAccessPolicyStatement, .CreateSchemaStatement, .CreateTableStatement, .CreateViewStatement, .Comment, .DeclareStatement, .DeleteStatement, .DifferentialPrivacyClause, .DotOperator, .DropStatement, .DropRowAccessPolicyStatement, .ElseIfClause, .EOF, .EmptyStruct, .ExecuteStatement, .ExportDataStatement, .ExportModelStatement, .ExtractArgument, .ForSystemTimeAsOfClause, .ForStatement, .FromStatement, .FunctionChain, .GrantStatement, .GroupByExprs, .GroupedIdentWithOptions, .GroupedExpr, .GroupedExprs, .GroupedPattern, .GroupedStatement, .GroupedType, .GroupedTypeDeclarationOrConstraints, .Keyword, .KeywordSequence, .KeywordWithExpr, .KeywordWithExprs, .KeywordWithType, .KeywordWithGroupedXXX, .KeywordWithStatement, .KeywordWithStatements, .Identifier, .IdentWithOptions, .IfStatement, .InsertStatement, .IntervalLiteral, .InOperator, .IsDistinctFromOperator, .JoinOperator, .JoinPipeOperator, .LimitClause, .LimitPipeOperator, .LoadStatement, .LoopStatement, .MatchRecognizeClause, .MatchRecognizeConfig, .MatchRecognizePipeOperator, .MergeStatement, .MultiTokenIdentifier, .NumericLiteral, .NullLiteral, .OrPattern, .OverClause, .OverwritePartitionsClause, .Parameter, .Pattern, .PatternClause, .PatternQuantifier, .PipeStatement, .PivotConfig, .PivotOperator, .PivotPipeOperator, .RaiseStatement, .RangeLiteral, .RenameColumnClause, .RepeatStatement, .RevokeStatement, .SelectPipeOperator, .SelectStatement, .SetOperator, .SetStatement, .SingleTokenStatement, .StringLiteral, .StructLiteral, .Symbol, .TableSampleClause, .TableSamplePipeOperator, .TableSampleRatio, .Template, .TrainingDataCustomHolidayClause, .TransactionStatement, .TruncateStatement, .Type, .TypeDeclaration, .UnaryOperator, .Unknown, .UndropStatement, .UnionPipeOperator, .UnpivotOperator, .UnpivotPipeOperator, .UnpivotConfig, .UpdateStatement, .WhenClause, .WhileStatement, .WindowClause, .WindowExpr, .WindowFrameClause, .WindowSpecification, .WithClause, .WithOffsetClause, .WithPipeOperator, .WithPartitionColumnsClause, .WithQuery, .XXXByExprs]

/-- All keys (src/parser.rs). -/
def Key.all : List Key := [.k_add, .k_add_columns, .k_add_constraints, .k_aggregate, .k_alias, .k_alter_column_stmt, .k_and, .k_args, .k_arms, .k_as, .k_as_struct_or_value, .k_at_time_zone, .k_between, .k_by, .k_by_target_or_source, .k_cascade_or_restrict, .k_cast_from, .k_cast_to, .k_clone, .k_clusterby, .k_collate, .k_colon, .k_column, .k_column_group, .k_column_name_list, .k_column_schema_group, .k_columns, .k_comma, .k_condition, .k_config, .k_connection, .k_connection_name, .k_constraint, .k_corresponding, .k_custom_holiday, .k_data, .k_data_type, .k_date_part, .k_declarations, .k_default, .k_default_collate, .k_define, .k_description, .k_determinism, .k_differential_privacy, .k_distinct, .k_distinct_or_all, .k_do, .k_drop, .k_drop_columns, .k_drop_default, .k_drop_not_null, .k_else, .k_elseifs, .k_end, .k_end_case, .k_end_for, .k_end_if, .k_end_loop, .k_end_repeat, .k_end_while, .k_enforced, .k_except, .k_exception_when_error, .k_expr, .k_exprs, .k_external, .k_extract_datepart, .k_extract_from, .k_files, .k_filter, .k_for, .k_for_system_time_as_of, .k_format, .k_frame, .k_from, .k_from_files, .k_func, .k_grant, .k_group, .k_groupby, .k_grouped_expr, .k_having, .k_how, .k_ident, .k_idents, .k_if_exists, .k_if_not_exists, .k_ignore_nulls, .k_immediate, .k_in, .k_in_out, .k_include_or_exclude_nulls, .k_input, .k_into, .k_join_type, .k_json, .k_json_string, .k_key, .k_keywords, .k_label, .k_language, .k_leading_comments, .k_leading_label, .k_left, .k_like_or_copy, .k_limit, .k_match_recognize, .k_matched, .k_materialized, .k_max, .k_measures, .k_method, .k_min, .k_name, .k_next_keyword, .k_not, .k_not_null, .k_null_order, .k_offset, .k_on, .k_operation, .k_options, .k_or_replace, .k_order, .k_orderby, .k_outer, .k_output, .k_over, .k_overwrite, .k_overwrite_partitions, .k_parameter, .k_partition_columns, .k_partitionby, .k_pattern, .k_patterns, .k_percent, .k_pivot, .k_primarykey, .k_procedure, .k_qualify, .k_quantifier, .k_queries, .k_query, .k_rbrace, .k_recursive, .k_references, .k_remote, .k_rename, .k_rename_columns, .k_replace, .k_resource_type, .k_result, .k_returns, .k_right, .k_right_max, .k_right_min, .k_roles, .k_row_value_alias, .k_rparen, .k_semicolon, .k_set, .k_skip_rule, .k_snapshot, .k_source_table, .k_sql_expr, .k_start, .k_stmt, .k_stmts, .k_storing, .k_suffixes, .k_system, .k_system_time_as_of, .k_table, .k_table_name, .k_tablename, .k_tablesample, .k_target_name, .k_temp, .k_then, .k_time_zone, .k_to, .k_to_date_part, .k_trailing_comments, .k_trailing_idents, .k_trailing_label, .k_training_data, .k_training_data_custom_holiday, .k_transaction, .k_transform, .k_type, .k_type_declaration, .k_unpivot, .k_until, .k_using, .k_variable_type, .k_what, .k_whens, .k_where, .k_window, .k_window_exprs, .k_with, .k_with_connection, .k_with_offset, .k_with_partition_columns]

/-- All keyword constants (src/parser.rs, src/constants.rs). -/
def Kw.all : List Kw := [.sym_ne, .sym_amp, .sym_lparen, .sym_rparen, .sym_star, .sym_plus, .sym_comma, .sym_minus, .sym_dot, .sym_slash, .sym_semi, .sym_lt, .sym_shl, .sym_le, .sym_ltgt, .sym_eq, .sym_arrow, .sym_gt, .sym_ge, .sym_shr, .sym_quest, .ADD, .AFTER, .AGGREGATE, .ALL, .ALTER, .AND, .ANY, .ARRAY, .AS, .ASC, .ASSERT, .ASSERT_ROWS_MODIFIED, .ASSIGNMENT, .AT, .B, .BEGIN, .BETWEEN, .BIGDECIMAL, .BIGNUMERIC, .BI_CAPACITY, .BR, .BREAK, .BY, .CALL, .CAPACITY, .CASCADE, .CASE, .CAST, .CLONE, .CLUSTER, .COLLATE, .COLUMN, .COMMIT, .CONNECTION, .CONSTRAINT, .CONTAINS, .CONTINUE, .COPY, .CORRESPONDING, .CREATE, .CROSS, .CUBE, .CURRENT, .DATA, .DATE, .DATETIME, .DECIMAL, .DECLARE, .DEFAULT, .DEFINE, .DELETE, .DESC, .DETERMINISTIC, .DISTINCT, .DROP, .ELSE, .ELSEIF, .END, .ENFORCED, .ENUM, .ESCAPE, .EXCEPT, .EXCEPTION, .EXCLUDE, .EXECUTE, .EXISTS, .EXPORT, .EXTEND, .EXTERNAL, .EXTRACT, .FALSE, .FETCH, .FIRST, .FOLLOWING, .FOR, .FOREIGN, .FORMAT, .FROM, .FULL, .FUNCTION, .GRANT, .GROUP, .GROUPING, .GROUPS, .HASH, .HAVING, .IF, .IGNORE, .IN, .INCLUDE, .INNER, .INOUT, .INPUT, .INSERT, .INTERSECT, .INTERVAL, .INTO, .IS, .ITERATE, .JOIN, .JSON, .KEY, .LANGUAGE, .LAST, .LATERAL, .LEAVE, .LEFT, .LIKE, .LIMIT, .LOAD, .LOOKUP, .LOOP, .MATCH_RECOGNIZE, .MATERIALIZED, .MEASURES, .MERGE, .MODEL, .NATURAL, .NEW, .NO, .NOT, .NULL, .NULLS, .NUMERIC, .OF, .OFFSET, .ON, .OPTIONS, .OR, .ORDER, .ORGANIZATION, .OUT, .OUTER, .OUTPUT, .OVER, .OVERWRITE, .PARTITION, .PARTITIONS, .PATTERN, .PIVOT, .PRECEDING, .PRIMARY, .PROCEDURE, .PROJECT, .PROTO, .QUALIFY, .R, .RAISE, .RANGE, .RB, .RECURSIVE, .REFERENCES, .REMOTE, .RENAME, .REPEAT, .REPLACE, .REPLICA, .RESERVATION, .RESPECT, .RESTRICT, .RETURN, .RETURNS, .REVOKE, .RIGHT, .ROLLBACK, .ROLLUP, .ROW, .ROWS, .SAFE_CAST, .SCHEMA, .SEARCH, .SELECT, .SET, .SNAPSHOT, .SOME, .STORING, .STRICT, .STRUCT, .TABLE, .TABLESAMPLE, .TEMP, .TEMPORARY, .THEN, .TIME, .TIMESTAMP, .TO, .TRAINING_DATA, .TRANSACTION, .TRANSFORM, .TREAT, .TRUE, .TRUNCATE, .TYPE, .UNBOUNDED, .UNDROP, .UNION, .UNNEST, .UNPIVOT, .UNTIL, .UPDATE, .USING, .VALUES, .VECTOR, .VIEW, .WHEN, .WHERE, .WHILE, .WINDOW, .WITH, .WITHIN, .sym_lbrack, .sym_rbrack, .sym_caret, .sym_lbrace, .sym_bar, .sym_pipe, .sym_concat, .sym_tilde]

/-- All functions (src/parser.rs). -/
def Fn.all : List Fn := [.parse_between_operator, .parse_binary_operator, .parse_constraint, .parse_cte, .parse_enforced, .parse_expr, .parse_exprs, .parse_grouped_exprs, .parse_grouped_type_declaration_or_constraints, .parse_identifier, .parse_single_or_multi_token_identifier, .parse_in_operator, .parse_is_distinct_from_operator, .parse_keyword_with_grouped_exprs, .parse_keyword_with_statements, .parse_n_keywords, .parse_set_operator, .parse_statement, .parse_table, .parse_type, .parse_window_expr, .parse_with_connection_clause, .parse_with_clause, .parse_window_clause, .parse_xxxby_exprs, .parse_groupby_exprs, .parse_table_sample_ratio, .parse_pivot_config_clause, .parse_unpivot_config_clause, .parse_match_recognize_clause, .parse_match_recognize_config, .parse_by_name_clause, .parse_pattern_clause, .parse_grouped_pattern, .parse_pattern, .parse_quantifier, .parse_corresponding_clause, .push_trailing_alias, .parse_select_statement, .parse_from_statement, .parse_pipe_statement, .parse_select_pipe_operator, .parse_limit_pipe_operator, .parse_aggregate_pipe_operator, .parse_union_pipe_operator, .parse_join_pipe_operator, .parse_tablesample_pipe_operator, .parse_pivot_pipe_operator, .parse_unpivot_pipe_operator, .parse_with_pipe_operator, .parse_match_recognize_pipe_operator, .parse_base_pipe_operator, .parse_insert_statement, .parse_delete_statement, .parse_truncate_statement, .parse_update_statement, .parse_merge_statement, .parse_create_schema_statement, .parse_create_search_index_statement, .parse_create_table_statement, .parse_create_view_statement, .parse_create_function_statement, .parse_create_procedure_statement, .parse_create_row_access_policy_statement, .parse_create_model_statement, .parse_alter_schema_statement, .parse_alter_table_statement, .parse_alter_column_statement, .parse_alter_vector_index_statement, .parse_alter_view_statement, .parse_alter_organization_statement, .parse_alter_project_statement, .parse_alter_bicapacity_statement, .parse_alter_reservation_statement, .parse_alter_model_statement, .parse_drop_row_access_policy_statement, .parse_drop_statement_general, .parse_undrop_statement, .parse_grant_statement, .parse_revoke_statement, .parse_create_reservation_statement, .parse_declare_statement, .parse_set_statement, .parse_execute_statement, .parse_begin_statement, .parse_if_statement, .parse_labeled_statement, .parse_break_continue_statement, .parse_loop_statement, .parse_repeat_statement, .parse_while_statement, .parse_single_token_statement, .parse_for_statement, .parse_transaction_statement, .parse_raise_statement, .parse_case_statement, .parse_call_statement, .parse_assert_satement, .parse_export_data_statement, .parse_export_model_statement, .parse_load_statement]

/-- The name of a node type (src/cst.rs 205, `{:?}`). -/
def NodeType.name : NodeType → List Char
  | .AccessOperator => ['A', 'c', 'c', 'e', 's', 's', 'O', 'p', 'e', 'r', 'a', 't', 'o', 'r']
  | .AddColumnClause => ['A', 'd', 'd', 'C', 'o', 'l', 'u', 'm', 'n', 'C', 'l', 'a', 'u', 's', 'e']
  | .AddConstraintClause => ['A', 'd', 'd', 'C', 'o', 'n', 's', 't', 'r', 'a', 'i', 'n', 't', 'C', 'l', 'a', 'u', 's', 'e']
  | .AggregatePipeOperator => ['A', 'g', 'g', 'r', 'e', 'g', 'a', 't', 'e', 'P', 'i', 'p', 'e', 'O', 'p', 'e', 'r', 'a', 't', 'o', 'r']
  | .AlterColumnStatement => ['A', 'l', 't', 'e', 'r', 'C', 'o', 'l', 'u', 'm', 'n', 'S', 't', 'a', 't', 'e', 'm', 'e', 'n', 't']
  | .AlterBICapacityStatement => ['A', 'l', 't', 'e', 'r', 'B', 'I', 'C', 'a', 'p', 'a', 'c', 'i', 't', 'y', 'S', 't', 'a', 't', 'e', 'm', 'e', 'n', 't']
  | .AlterModelStatement => ['A', 'l', 't', 'e', 'r', 'M', 'o', 'd', 'e', 'l', 'S', 't', 'a', 't', 'e', 'm', 'e', 'n', 't']
  | .AlterOrganizationStatement => ['A', 'l', 't', 'e', 'r', 'O', 'r', 'g', 'a', 'n', 'i', 'z', 'a', 't', 'i', 'o', 'n', 'S', 't', 'a', 't', 'e', 'm', 'e', 'n', 't']
  | .AlterTableDropClause => ['A', 'l', 't', 'e', 'r', 'T', 'a', 'b', 'l', 'e', 'D', 'r', 'o', 'p', 'C', 'l', 'a', 'u', 's', 'e']
  | .AlterProjectStatement => ['A', 'l', 't', 'e', 'r', 'P', 'r', 'o', 'j', 'e', 'c', 't', 'S', 't', 'a', 't', 'e', 'm', 'e', 'n', 't']
  | .AlterReservationStatement => ['A', 'l', 't', 'e', 'r', 'R', 'e', 's', 'e', 'r', 'v', 'a', 't', 'i', 'o', 'n', 'S', 't', 'a', 't', 'e', 'm', 'e', 'n', 't']
  | .AlterSchemaStatement => ['A', 'l', 't', 'e', 'r', 'S', 'c', 'h', 'e', 'm', 'a', 'S', 't', 'a', 't', 'e', 'm', 'e', 'n', 't']
  | .AlterTableStatement => ['A', 'l', 't', 'e', 'r', 'T', 'a', 'b', 'l', 'e', 'S', 't', 'a', 't', 'e', 'm', 'e', 'n', 't']
  | .AlterVectorIndexStatement => ['A', 'l', 't', 'e', 'r', 'V', 'e', 'c', 't', 'o', 'r', 'I', 'n', 'd', 'e', 'x', 'S', 't', 'a', 't', 'e', 'm', 'e', 'n', 't']
  | .AlterViewStatement => ['A', 'l', 't', 'e', 'r', 'V', 'i', 'e', 'w', 'S', 't', 'a', 't', 'e', 'm', 'e', 'n', 't']
  | .ArrayLiteral => ['A', 'r', 'r', 'a', 'y', 'L', 'i', 't', 'e', 'r', 'a', 'l']
  | .AssertStatement => ['A', 's', 's', 'e', 'r', 't', 'S', 't', 'a', 't', 'e', 'm', 'e', 'n', 't']
  | .Asterisk => ['A', 's', 't', 'e', 'r', 'i', 's', 'k']
  | .BasePipeOperator => ['B', 'a', 's', 'e', 'P', 'i', 'p', 'e', 'O', 'p', 'e', 'r', 'a', 't', 'o', 'r']
  | .BinaryOperator => ['B', 'i', 'n', 'a', 'r', 'y', 'O', 'p', 'e', 'r', 'a', 't', 'o', 'r']
  | .BeginStatement => ['B', 'e', 'g', 'i', 'n', 'S', 't', 'a', 't', 'e', 'm', 'e', 'n', 't']
  | .BetweenOperator => ['B', 'e', 't', 'w', 'e', 'e', 'n', 'O', 'p', 'e', 'r', 'a', 't', 'o', 'r']
  | .BooleanLiteral => ['B', 'o', 'o', 'l', 'e', 'a', 'n', 'L', 'i', 't', 'e', 'r', 'a', 'l']
  | .BreakContinueStatement => ['B', 'r', 'e', 'a', 'k', 'C', 'o', 'n', 't', 'i', 'n', 'u', 'e', 'S', 't', 'a', 't', 'e', 'm', 'e', 'n', 't']
  | .CallingFunction => ['C', 'a', 'l', 'l', 'i', 'n', 'g', 'F', 'u', 'n', 'c', 't', 'i', 'o', 'n']
  | .CallingTableFunction => ['C', 'a', 'l', 'l', 'i', 'n', 'g', 'T', 'a', 'b', 'l', 'e', 'F', 'u', 'n', 'c', 't', 'i', 'o', 'n']
  | .CallingUnnest => ['C', 'a', 'l', 'l', 'i', 'n', 'g', 'U', 'n', 'n', 'e', 's', 't']
  | .CallStatement => ['C', 'a', 'l', 'l', 'S', 't', 'a', 't', 'e', 'm', 'e', 'n', 't']
  | .Constraint => ['C', 'o', 'n', 's', 't', 'r', 'a', 'i', 'n', 't']
  | .CaseExpr => ['C', 'a', 's', 'e', 'E', 'x', 'p', 'r']
  | .CaseExprArm => ['C', 'a', 's', 'e', 'E', 'x', 'p', 'r', 'A', 'r', 'm']
  | .CaseStatement => ['C', 'a', 's', 'e', 'S', 't', 'a', 't', 'e', 'm', 'e', 'n', 't']
  | .CaseStatementArm => ['C', 'a', 's', 'e', 'S', 't', 'a', 't', 'e', 'm', 'e', 'n', 't', 'A', 'r', 'm']
  | .CastArgument => ['C', 'a', 's', 't', 'A', 'r', 'g', 'u', 'm', 'e', 'n', 't']
  | .CreateFunctionStatement => ['C', 'r', 'e', 'a', 't', 'e', 'F', 'u', 'n', 'c', 't', 'i', 'o', 'n', 'S', 't', 'a', 't', 'e', 'm', 'e', 'n', 't']
  | .CreateIndexStatement => ['C', 'r', 'e', 'a', 't', 'e', 'I', 'n', 'd', 'e', 'x', 'S', 't', 'a', 't', 'e', 'm', 'e', 'n', 't']
  | .CreateModelStatement => ['C', 'r', 'e', 'a', 't', 'e', 'M', 'o', 'd', 'e', 'l', 'S', 't', 'a', 't', 'e', 'm', 'e', 'n', 't']
  | .CreateProcedureStatement => ['C', 'r', 'e', 'a', 't', 'e', 'P', 'r', 'o', 'c', 'e', 'd', 'u', 'r', 'e', 'S', 't', 'a', 't', 'e', 'm', 'e', 'n', 't']
  | .CreateReservationStatement => ['C', 'r', 'e', 'a', 't', 'e', 'R', 'e', 's', 'e', 'r', 'v', 'a', 't', 'i', 'o', 'n', 'S', 't', 'a', 't', 'e', 'm', 'e', 'n', 't']
  | .CreateRowAccessPolicyStatement => ['C', 'r', 'e', 'a', 't', 'e', 'R', 'o', 'w', 'A', 'c', 'c', 'e', 's', 's', 'P', 'o', 'l', 'i', 'c', 'y', 'S', 't', 'a', 't', 'e', 'm', 'e', 'n', 't']
  | .CreateSchemaStatement => ['C', 'r', 'e', 'a', 't', 'e', 'S', 'c', 'h', 'e', 'm', 'a', 'S', 't', 'a', 't', 'e', 'm', 'e', 'n', 't']
  | .CreateTableStatement => ['C', 'r', 'e', 'a', 't', 'e', 'T', 'a', 'b', 'l', 'e', 'S', 't', 'a', 't', 'e', 'm', 'e', 'n', 't']
  | .CreateViewStatement => ['C', 'r', 'e', 'a', 't', 'e', 'V', 'i', 'e', 'w', 'S', 't', 'a', 't', 'e', 'm', 'e', 'n', 't']
  | .Comment => ['C', 'o', 'm', 'm', 'e', 'n', 't']
  | .DeclareStatement => ['D', 'e', 'c', 'l', 'a', 'r', 'e', 'S', 't', 'a', 't', 'e', 'm', 'e', 'n', 't']
  | .DeleteStatement => ['D', 'e', 'l', 'e', 't', 'e', 'S', 't', 'a', 't', 'e', 'm', 'e', 'n', 't']
  | .DifferentialPrivacyClause => ['D', 'i', 'f', 'f', 'e', 'r', 'e', 'n', 't', 'i', 'a', 'l', 'P', 'r', 'i', 'v', 'a', 'c', 'y', 'C', 'l', 'a', 'u', 's', 'e']
  | .DotOperator => ['D', 'o', 't', 'O', 'p', 'e', 'r', 'a', 't', 'o', 'r']
  | .DropStatement => ['D', 'r', 'o', 'p', 'S', 't', 'a', 't', 'e', 'm', 'e', 'n', 't']
  | .DropRowAccessPolicyStatement => ['D', 'r', 'o', 'p', 'R', 'o', 'w', 'A', 'c', 'c', 'e', 's', 's', 'P', 'o', 'l', 'i', 'c', 'y', 'S', 't', 'a', 't', 'e', 'm', 'e', 'n', 't']
  | .ElseIfClause => ['E', 'l', 's', 'e', 'I', 'f', 'C', 'l', 'a', 'u', 's', 'e']
  | .EOF => ['E', 'O', 'F']
  | .EmptyStruct => ['E', 'm', 'p', 't', 'y', 'S', 't', 'r', 'u', 'c', 't']
  | .ExecuteStatement => ['E', 'x', 'e', 'c', 'u', 't', 'e', 'S', 't', 'a', 't', 'e', 'm', 'e', 'n', 't']
  | .ExportDataStatement => ['E', 'x', 'p', 'o', 'r', 't', 'D', 'a', 't', 'a', 'S', 't', 'a', 't', 'e', 'm', 'e', 'n', 't']
  | .ExportModelStatement => ['E', 'x', 'p', 'o', 'r', 't', 'M', 'o', 'd', 'e', 'l', 'S', 't', 'a', 't', 'e', 'm', 'e', 'n', 't']
  | .ExtractArgument => ['E', 'x', 't', 'r', 'a', 'c', 't', 'A', 'r', 'g', 'u', 'm', 'e', 'n', 't']
  | .ForSystemTimeAsOfClause => ['F', 'o', 'r', 'S', 'y', 's', 't', 'e', 'm', 'T', 'i', 'm', 'e', 'A', 's', 'O', 'f', 'C', 'l', 'a', 'u', 's', 'e']
  | .ForStatement => ['F', 'o', 'r', 'S', 't', 'a', 't', 'e', 'm', 'e', 'n', 't']
  | .FromStatement => ['F', 'r', 'o', 'm', 'S', 't', 'a', 't', 'e', 'm', 'e', 'n', 't']
  | .FunctionChain => ['F', 'u', 'n', 'c', 't', 'i', 'o', 'n', 'C', 'h', 'a', 'i', 'n']
  | .GrantStatement => ['G', 'r', 'a', 'n', 't', 'S', 't', 'a', 't', 'e', 'm', 'e', 'n', 't']
  | .GroupByExprs => ['G', 'r', 'o', 'u', 'p', 'B', 'y', 'E', 'x', 'p', 'r', 's']
  | .GroupedIdentWithOptions => ['G', 'r', 'o', 'u', 'p', 'e', 'd', 'I', 'd', 'e', 'n', 't', 'W', 'i', 't', 'h', 'O', 'p', 't', 'i', 'o', 'n', 's']
  | .GroupedExpr => ['G', 'r', 'o', 'u', 'p', 'e', 'd', 'E', 'x', 'p', 'r']
  | .GroupedExprs => ['G', 'r', 'o', 'u', 'p', 'e', 'd', 'E', 'x', 'p', 'r', 's']
  | .GroupedPattern => ['G', 'r', 'o', 'u', 'p', 'e', 'd', 'P', 'a', 't', 't', 'e', 'r', 'n']
  | .GroupedStatement => ['G', 'r', 'o', 'u', 'p', 'e', 'd', 'S', 't', 'a', 't', 'e', 'm', 'e', 'n', 't']
  | .GroupedType => ['G', 'r', 'o', 'u', 'p', 'e', 'd', 'T', 'y', 'p', 'e']
  | .GroupedTypeDeclarationOrConstraints => ['G', 'r', 'o', 'u', 'p', 'e', 'd', 'T', 'y', 'p', 'e', 'D', 'e', 'c', 'l', 'a', 'r', 'a', 't', 'i', 'o', 'n', 'O', 'r', 'C', 'o', 'n', 's', 't', 'r', 'a', 'i', 'n', 't', 's']
  | .Keyword => ['K', 'e', 'y', 'w', 'o', 'r', 'd']
  | .KeywordSequence => ['K', 'e', 'y', 'w', 'o', 'r', 'd', 'S', 'e', 'q', 'u', 'e', 'n', 'c', 'e']
  | .KeywordWithExpr => ['K', 'e', 'y', 'w', 'o', 'r', 'd', 'W', 'i', 't', 'h', 'E', 'x', 'p', 'r']
  | .KeywordWithExprs => ['K', 'e', 'y', 'w', 'o', 'r', 'd', 'W', 'i', 't', 'h', 'E', 'x', 'p', 'r', 's']
  | .KeywordWithType => ['K', 'e', 'y', 'w', 'o', 'r', 'd', 'W', 'i', 't', 'h', 'T', 'y', 'p', 'e']
  | .KeywordWithGroupedXXX => ['K', 'e', 'y', 'w', 'o', 'r', 'd', 'W', 'i', 't', 'h', 'G', 'r', 'o', 'u', 'p', 'e', 'd', 'X', 'X', 'X']
  | .KeywordWithStatement => ['K', 'e', 'y', 'w', 'o', 'r', 'd', 'W', 'i', 't', 'h', 'S', 't', 'a', 't', 'e', 'm', 'e', 'n', 't']
  | .KeywordWithStatements => ['K', 'e', 'y', 'w', 'o', 'r', 'd', 'W', 'i', 't', 'h', 'S', 't', 'a', 't', 'e', 'm', 'e', 'n', 't', 's']
  | .Identifier => ['I', 'd', 'e', 'n', 't', 'i', 'f', 'i', 'e', 'r']
  | .IdentWithOptions => ['I', 'd', 'e', 'n', 't', 'W', 'i', 't', 'h', 'O', 'p', 't', 'i', 'o', 'n', 's']
  | .IfStatement => ['I', 'f', 'S', 't', 'a', 't', 'e', 'm', 'e', 'n', 't']
  | .InsertStatement => ['I', 'n', 's', 'e', 'r', 't', 'S', 't', 'a', 't', 'e', 'm', 'e', 'n', 't']
  | .IntervalLiteral => ['I', 'n', 't', 'e', 'r', 'v', 'a', 'l', 'L', 'i', 't', 'e', 'r', 'a', 'l']
  | .InOperator => ['I', 'n', 'O', 'p', 'e', 'r', 'a', 't', 'o', 'r']
  | .IsDistinctFromOperator => ['I', 's', 'D', 'i', 's', 't', 'i', 'n', 'c', 't', 'F', 'r', 'o', 'm', 'O', 'p', 'e', 'r', 'a', 't', 'o', 'r']
  | .JoinOperator => ['J', 'o', 'i', 'n', 'O', 'p', 'e', 'r', 'a', 't', 'o', 'r']
  | .JoinPipeOperator => ['J', 'o', 'i', 'n', 'P', 'i', 'p', 'e', 'O', 'p', 'e', 'r', 'a', 't', 'o', 'r']
  | .LimitClause => ['L', 'i', 'm', 'i', 't', 'C', 'l', 'a', 'u', 's', 'e']
  | .LimitPipeOperator => ['L', 'i', 'm', 'i', 't', 'P', 'i', 'p', 'e', 'O', 'p', 'e', 'r', 'a', 't', 'o', 'r']
  | .LoadStatement => ['L', 'o', 'a', 'd', 'S', 't', 'a', 't', 'e', 'm', 'e', 'n', 't']
  | .LoopStatement => ['L', 'o', 'o', 'p', 'S', 't', 'a', 't', 'e', 'm', 'e', 'n', 't']
  | .MatchRecognizeClause => ['M', 'a', 't', 'c', 'h', 'R', 'e', 'c', 'o', 'g', 'n', 'i', 'z', 'e', 'C', 'l', 'a', 'u', 's', 'e']
  | .MatchRecognizeConfig => ['M', 'a', 't', 'c', 'h', 'R', 'e', 'c', 'o', 'g', 'n', 'i', 'z', 'e', 'C', 'o', 'n', 'f', 'i', 'g']
  | .MatchRecognizePipeOperator => ['M', 'a', 't', 'c', 'h', 'R', 'e', 'c', 'o', 'g', 'n', 'i', 'z', 'e', 'P', 'i', 'p', 'e', 'O', 'p', 'e', 'r', 'a', 't', 'o', 'r']
  | .MergeStatement => ['M', 'e', 'r', 'g', 'e', 'S', 't', 'a', 't', 'e', 'm', 'e', 'n', 't']
  | .MultiTokenIdentifier => ['M', 'u', 'l', 't', 'i', 'T', 'o', 'k', 'e', 'n', 'I', 'd', 'e', 'n', 't', 'i', 'f', 'i', 'e', 'r']
  | .NumericLiteral => ['N', 'u', 'm', 'e', 'r', 'i', 'c', 'L', 'i', 't', 'e', 'r', 'a', 'l']
  | .NullLiteral => ['N', 'u', 'l', 'l', 'L', 'i', 't', 'e', 'r', 'a', 'l']
  | .OrPattern => ['O', 'r', 'P', 'a', 't', 't', 'e', 'r', 'n']
  | .OverClause => ['O', 'v', 'e', 'r', 'C', 'l', 'a', 'u', 's', 'e']
  | .OverwritePartitionsClause => ['O', 'v', 'e', 'r', 'w', 'r', 'i', 't', 'e', 'P', 'a', 'r', 't', 'i', 't', 'i', 'o', 'n', 's', 'C', 'l', 'a', 'u', 's', 'e']
  | .Parameter => ['P', 'a', 'r', 'a', 'm', 'e', 't', 'e', 'r']
  | .Pattern => ['P', 'a', 't', 't', 'e', 'r', 'n']
  | .PatternClause => ['P', 'a', 't', 't', 'e', 'r', 'n', 'C', 'l', 'a', 'u', 's', 'e']
  | .PatternQuantifier => ['P', 'a', 't', 't', 'e', 'r', 'n', 'Q', 'u', 'a', 'n', 't', 'i', 'f', 'i', 'e', 'r']
  | .PipeStatement => ['P', 'i', 'p', 'e', 'S', 't', 'a', 't', 'e', 'm', 'e', 'n', 't']
  | .PivotConfig => ['P', 'i', 'v', 'o', 't', 'C', 'o', 'n', 'f', 'i', 'g']
  | .PivotOperator => ['P', 'i', 'v', 'o', 't', 'O', 'p', 'e', 'r', 'a', 't', 'o', 'r']
  | .PivotPipeOperator => ['P', 'i', 'v', 'o', 't', 'P', 'i', 'p', 'e', 'O', 'p', 'e', 'r', 'a', 't', 'o', 'r']
  | .RaiseStatement => ['R', 'a', 'i', 's', 'e', 'S', 't', 'a', 't', 'e', 'm', 'e', 'n', 't']
  | .RangeLiteral => ['R', 'a', 'n', 'g', 'e', 'L', 'i', 't', 'e', 'r', 'a', 'l']
  | .RenameColumnClause => ['R', 'e', 'n', 'a', 'm', 'e', 'C', 'o', 'l', 'u', 'm', 'n', 'C', 'l', 'a', 'u', 's', 'e']
  | .RepeatStatement => ['R', 'e', 'p', 'e', 'a', 't', 'S', 't', 'a', 't', 'e', 'm', 'e', 'n', 't']
  | .RevokeStatement => ['R', 'e', 'v', 'o', 'k', 'e', 'S', 't', 'a', 't', 'e', 'm', 'e', 'n', 't']
  | .SelectPipeOperator => ['S', 'e', 'l', 'e', 'c', 't', 'P', 'i', 'p', 'e', 'O', 'p', 'e', 'r', 'a', 't', 'o', 'r']
  | .SelectStatement => ['S', 'e', 'l', 'e', 'c', 't', 'S', 't', 'a', 't', 'e', 'm', 'e', 'n', 't']
  | .SetOperator => ['S', 'e', 't', 'O', 'p', 'e', 'r', 'a', 't', 'o', 'r']
  | .SetStatement => ['S', 'e', 't', 'S', 't', 'a', 't', 'e', 'm', 'e', 'n', 't']
  | .SingleTokenStatement => ['S', 'i', 'n', 'g', 'l', 'e', 'T', 'o', 'k', 'e', 'n', 'S', 't', 'a', 't', 'e', 'm', 'e', 'n', 't']
  | .StringLiteral => ['S', 't', 'r', 'i', 'n', 'g', 'L', 'i', 't', 'e', 'r', 'a', 'l']
  | .StructLiteral => ['S', 't', 'r', 'u', 'c', 't', 'L', 'i', 't', 'e', 'r', 'a', 'l']
  | .Symbol => ['S', 'y', 'm', 'b', 'o', 'l']
  | .TableSampleClause => ['T', 'a', 'b', 'l', 'e', 'S', 'a', 'm', 'p', 'l', 'e', 'C', 'l', 'a', 'u', 's', 'e']
  | .TableSamplePipeOperator => ['T', 'a', 'b', 'l', 'e', 'S', 'a', 'm', 'p', 'l', 'e', 'P', 'i', 'p', 'e', 'O', 'p', 'e', 'r', 'a', 't', 'o', 'r']
  | .TableSampleRatio => ['T', 'a', 'b', 'l', 'e', 'S', 'a', 'm', 'p', 'l', 'e', 'R', 'a', 't', 'i', 'o']
  | .Template => ['T', 'e', 'm', 'p', 'l', 'a', 't', 'e']
  | .TrainingDataCustomHolidayClause => ['T', 'r', 'a', 'i', 'n', 'i', 'n', 'g', 'D', 'a', 't', 'a', 'C', 'u', 's', 't', 'o', 'm', 'H', 'o', 'l', 'i', 'd', 'a', 'y', 'C', 'l', 'a', 'u', 's', 'e']
  | .TransactionStatement => ['T', 'r', 'a', 'n', 's', 'a', 'c', 't', 'i', 'o', 'n', 'S', 't', 'a', 't', 'e', 'm', 'e', 'n', 't']
  | .TruncateStatement => ['T', 'r', 'u', 'n', 'c', 'a', 't', 'e', 'S', 't', 'a', 't', 'e', 'm', 'e', 'n', 't']
  | .Type => ['T', 'y', 'p', 'e']
  | .TypeDeclaration => ['T', 'y', 'p', 'e', 'D', 'e', 'c', 'l', 'a', 'r', 'a', 't', 'i', 'o', 'n']
  | .UnaryOperator => ['U', 'n', 'a', 'r', 'y', 'O', 'p', 'e', 'r', 'a', 't', 'o', 'r']
  | .Unknown => ['U', 'n', 'k', 'n', 'o', 'w', 'n']
  | .UndropStatement => ['U', 'n', 'd', 'r', 'o', 'p', 'S', 't', 'a', 't', 'e', 'm', 'e', 'n', 't']
  | .UnionPipeOperator => ['U', 'n', 'i', 'o', 'n', 'P', 'i', 'p', 'e', 'O', 'p', 'e', 'r', 'a', 't', 'o', 'r']
  | .UnpivotOperator => ['U', 'n', 'p', 'i', 'v', 'o', 't', 'O', 'p', 'e', 'r', 'a', 't', 'o', 'r']
  | .UnpivotPipeOperator => ['U', 'n', 'p', 'i', 'v', 'o', 't', 'P', 'i', 'p', 'e', 'O', 'p', 'e', 'r', 'a', 't', 'o', 'r']
  | .UnpivotConfig => ['U', 'n', 'p', 'i', 'v', 'o', 't', 'C', 'o', 'n', 'f', 'i', 'g']
  | .UpdateStatement => ['U', 'p', 'd', 'a', 't', 'e', 'S', 't', 'a', 't', 'e', 'm', 'e', 'n', 't']
  | .WhenClause => ['W', 'h', 'e', 'n', 'C', 'l', 'a', 'u', 's', 'e']
  | .WhileStatement => ['W', 'h', 'i', 'l', 'e', 'S', 't', 'a', 't', 'e', 'm', 'e', 'n', 't']
  | .WindowClause => ['W', 'i', 'n', 'd', 'o', 'w', 'C', 'l', 'a', 'u', 's', 'e']
  | .WindowExpr => ['W', 'i', 'n', 'd', 'o', 'w', 'E', 'x', 'p', 'r']
  | .WindowFrameClause => ['W', 'i', 'n', 'd', 'o', 'w', 'F', 'r', 'a', 'm', 'e', 'C', 'l', 'a', 'u', 's', 'e']
  | .WindowSpecification => ['W', 'i', 'n', 'd', 'o', 'w', 'S', 'p', 'e', 'c', 'i', 'f', 'i', 'c', 'a', 't', 'i', 'o', 'n']
  | .WithClause => ['W', 'i', 't', 'h', 'C', 'l', 'a', 'u', 's', 'e']
  | .WithOffsetClause => ['W', 'i', 't', 'h', 'O', 'f', 'f', 's', 'e', 't', 'C', 'l', 'a', 'u', 's', 'e']
  | .WithPipeOperator => ['W', 'i', 't', 'h', 'P', 'i', 'p', 'e', 'O', 'p', 'e', 'r', 'a', 't', 'o', 'r']
  | .WithPartitionColumnsClause => ['W', 'i', 't', 'h', 'P', 'a', 'r', 't', 'i', 't', 'i', 'o', 'n', 'C', 'o', 'l', 'u', 'm', 'n', 's', 'C', 'l', 'a', 'u', 's', 'e']
  | .WithQuery => ['W', 'i', 't', 'h', 'Q', 'u', 'e', 'r', 'y']
  | .XXXByExprs => ['X', 'X', 'X', 'B', 'y', 'E', 'x', 'p', 'r', 's']

/-- Local variables of the functions in src/parser.rs, numbered. -/
abbrev Var := Nat

/-- src/parser.rs 345: `left`. -/
abbrev v_left : Var := 0
/-- src/parser.rs 118: `precedence`. -/
abbrev v_precedence : Var := 1
/-- src/parser.rs 213: `between`. -/
abbrev v_between : Var := 2
/-- src/parser.rs 58: `node`. -/
abbrev v_node : Var := 3
/-- src/parser.rs 251: `res`. -/
abbrev v_res : Var := 4
/-- src/parser.rs 253: `constraint`. -/
abbrev v_constraint : Var := 5
/-- src/parser.rs 256: `_if_not_exists`. -/
abbrev v__if_not_exists : Var := 6
/-- src/parser.rs 258: `ident`. -/
abbrev v_ident : Var := 7
/-- src/parser.rs 283: `references`. -/
abbrev v_references : Var := 8
/-- src/parser.rs 298: `query`. -/
abbrev v_query : Var := 9
/-- src/parser.rs 303: `grouped`. -/
abbrev v_grouped : Var := 10
/-- src/parser.rs 327: `enforced`. -/
abbrev v_enforced : Var := 11
/-- src/parser.rs 340: `alias`. -/
abbrev v_alias : Var := 12
/-- src/parser.rs 341: `as_table`. -/
abbrev v_as_table : Var := 13
/-- src/parser.rs 342: `after_dot`. -/
abbrev v_after_dot : Var := 14
/-- src/parser.rs 826: `order`. -/
abbrev v_order : Var := 15
/-- src/parser.rs 530: `arms`. -/
abbrev v_arms : Var := 16
/-- src/parser.rs 532: `arm`. -/
abbrev v_arm : Var := 17
/-- src/parser.rs 549: `else_`. -/
abbrev v_else_ : Var := 18
/-- src/parser.rs 462: `right`. -/
abbrev v_right : Var := 19
/-- src/parser.rs 403: `type_`. -/
abbrev v_type_ : Var := 20
/-- src/parser.rs 446: `arr`. -/
abbrev v_arr : Var := 21
/-- src/parser.rs 425: `range_literal`. -/
abbrev v_range_literal : Var := 22
/-- src/parser.rs 405: `struct_literal`. -/
abbrev v_struct_literal : Var := 23
/-- src/parser.rs 380: `exprs`. -/
abbrev v_exprs : Var := 24
/-- src/parser.rs 409: `expr`. -/
abbrev v_expr : Var := 25
/-- src/parser.rs 368: `except`. -/
abbrev v_except : Var := 26
/-- src/parser.rs 360: `replace`. -/
abbrev v_replace : Var := 27
/-- src/parser.rs 777: `not`. -/
abbrev v_not : Var := 28
/-- src/parser.rs 713: `is_chained_function`. -/
abbrev v_is_chained_function : Var := 29
/-- src/parser.rs 118: `precedence`. -/
abbrev v_precedence_1 : Var := 30
/-- src/parser.rs 725: `dot`. -/
abbrev v_dot : Var := 31
/-- src/parser.rs 568: `func`. -/
abbrev v_func : Var := 32
/-- src/parser.rs 601: `datepart`. -/
abbrev v_datepart : Var := 33
/-- src/parser.rs 604: `from`. -/
abbrev v_from : Var := 34
/-- src/parser.rs 612: `at_time_zone`. -/
abbrev v_at_time_zone : Var := 35
/-- Introduced by the translation of src/parser.rs. -/
abbrev v_vec_tmp : Var := 36
/-- src/parser.rs 580: `cast_from`. -/
abbrev v_cast_from : Var := 37
/-- src/parser.rs 583: `as_`. -/
abbrev v_as_ : Var := 38
/-- src/parser.rs 589: `format`. -/
abbrev v_format : Var := 39
/-- src/parser.rs 637: `ignore_or_respect`. -/
abbrev v_ignore_or_respect : Var := 40
/-- src/parser.rs 646: `orderby`. -/
abbrev v_orderby : Var := 41
/-- src/parser.rs 655: `limit`. -/
abbrev v_limit : Var := 42
/-- src/parser.rs 668: `having`. -/
abbrev v_having : Var := 43
/-- src/parser.rs 670: `max`. -/
abbrev v_max : Var := 44
/-- src/parser.rs 684: `over`. -/
abbrev v_over : Var := 45
/-- src/parser.rs 826: `order`. -/
abbrev v_order_1 : Var := 46
/-- src/parser.rs 832: `nulls_first`. -/
abbrev v_nulls_first : Var := 47
/-- src/parser.rs 4160: `until`. -/
abbrev v_until : Var := 48
/-- src/parser.rs 409: `expr`. -/
abbrev v_expr_1 : Var := 49
/-- src/parser.rs 874: `group`. -/
abbrev v_group : Var := 50
/-- src/parser.rs 885: `schema`. -/
abbrev v_schema : Var := 51
/-- src/parser.rs 886: `aggregate`. -/
abbrev v_aggregate : Var := 52
/-- src/parser.rs 890: `type_declarations`. -/
abbrev v_type_declarations : Var := 53
/-- src/parser.rs 891: `marker_tokens`. -/
abbrev v_marker_tokens : Var := 54
/-- src/parser.rs 893: `type_declaration`. -/
abbrev v_type_declaration : Var := 55
/-- src/parser.rs 904: `in_out`. -/
abbrev v_in_out : Var := 56
/-- src/parser.rs 975: `operator`. -/
abbrev v_operator : Var := 57
/-- src/parser.rs 941: `root`. -/
abbrev v_root : Var := 58
/-- src/parser.rs 942: `trailing_idents`. -/
abbrev v_trailing_idents : Var := 59
/-- src/parser.rs 988: `unnest`. -/
abbrev v_unnest : Var := 60
/-- src/parser.rs 997: `lparen`. -/
abbrev v_lparen : Var := 61
/-- src/parser.rs 1029: `keyword`. -/
abbrev v_keyword : Var := 62
/-- src/parser.rs 43: `stmts`. -/
abbrev v_stmts : Var := 63
/-- src/parser.rs 1044: `n`. -/
abbrev v_n : Var := 64
/-- src/parser.rs 1045: `nodes`. -/
abbrev v_nodes : Var := 65
/-- src/parser.rs 192: `i`. -/
abbrev v_i : Var := 66
/-- src/parser.rs 1062: `method`. -/
abbrev v_method : Var := 67
/-- src/parser.rs 1066: `outer`. -/
abbrev v_outer : Var := 68
/-- src/parser.rs 1093: `semicolon`. -/
abbrev v_semicolon : Var := 69
/-- src/parser.rs 1109: `offset`. -/
abbrev v_offset : Var := 70
/-- src/parser.rs 1234: `statement_flg`. -/
abbrev v_statement_flg : Var := 71
/-- src/parser.rs 874: `group`. -/
abbrev v_group_1 : Var := 72
/-- src/parser.rs 1300: `for_`. -/
abbrev v_for_ : Var := 73
/-- src/parser.rs 1302: `system_time_as_of`. -/
abbrev v_system_time_as_of : Var := 74
/-- src/parser.rs 1319: `with`. -/
abbrev v_with : Var := 75
/-- src/parser.rs 1336: `pivot`. -/
abbrev v_pivot : Var := 76
/-- src/parser.rs 1343: `unpivot`. -/
abbrev v_unpivot : Var := 77
/-- src/parser.rs 1360: `tablesample`. -/
abbrev v_tablesample : Var := 78
/-- src/parser.rs 1373: `join`. -/
abbrev v_join : Var := 79
/-- src/parser.rs 1396: `on`. -/
abbrev v_on : Var := 80
/-- src/parser.rs 1482: `collate`. -/
abbrev v_collate : Var := 81
/-- src/parser.rs 1500: `primary`. -/
abbrev v_primary : Var := 82
/-- src/parser.rs 1502: `key`. -/
abbrev v_key : Var := 83
/-- src/parser.rs 1514: `col`. -/
abbrev v_col : Var := 84
/-- src/parser.rs 1525: `default`. -/
abbrev v_default : Var := 85
/-- src/parser.rs 1535: `not_`. -/
abbrev v_not_ : Var := 86
/-- src/parser.rs 1537: `null`. -/
abbrev v_null : Var := 87
/-- src/parser.rs 1542: `options`. -/
abbrev v_options : Var := 88
/-- src/parser.rs 1560: `window`. -/
abbrev v_window : Var := 89
/-- src/parser.rs 1567: `partition`. -/
abbrev v_partition : Var := 90
/-- src/parser.rs 1585: `frame`. -/
abbrev v_frame : Var := 91
/-- src/parser.rs 1592: `frame_start`. -/
abbrev v_frame_start : Var := 92
/-- src/parser.rs 1605: `frame_end`. -/
abbrev v_frame_end : Var := 93
/-- src/parser.rs 1647: `connection`. -/
abbrev v_connection : Var := 94
/-- src/parser.rs 1663: `queries`. -/
abbrev v_queries : Var := 95
/-- src/parser.rs 1677: `window_exprs`. -/
abbrev v_window_exprs : Var := 96
/-- src/parser.rs 1680: `window_expr`. -/
abbrev v_window_expr : Var := 97
/-- src/parser.rs 1695: `xxxby`. -/
abbrev v_xxxby : Var := 98
/-- src/parser.rs 1703: `groupby`. -/
abbrev v_groupby : Var := 99
/-- src/parser.rs 1736: `config`. -/
abbrev v_config : Var := 100
/-- src/parser.rs 1768: `in_`. -/
abbrev v_in_ : Var := 101
/-- src/parser.rs 1811: `match_recognize`. -/
abbrev v_match_recognize : Var := 102
/-- src/parser.rs 1829: `measures`. -/
abbrev v_measures : Var := 103
/-- src/parser.rs 1841: `after`. -/
abbrev v_after : Var := 104
/-- src/parser.rs 1843: `match_`. -/
abbrev v_match_ : Var := 105
/-- src/parser.rs 1845: `skip`. -/
abbrev v_skip : Var := 106
/-- src/parser.rs 1847: `past_to`. -/
abbrev v_past_to : Var := 107
/-- src/parser.rs 1849: `last_next`. -/
abbrev v_last_next : Var := 108
/-- src/parser.rs 1851: `row`. -/
abbrev v_row : Var := 109
/-- src/parser.rs 1861: `pattern`. -/
abbrev v_pattern : Var := 110
/-- src/parser.rs 1866: `define`. -/
abbrev v_define : Var := 111
/-- src/parser.rs 1882: `by`. -/
abbrev v_by : Var := 112
/-- src/parser.rs 1884: `name`. -/
abbrev v_name : Var := 113
/-- src/parser.rs 1890: `columns`. -/
abbrev v_columns : Var := 114
/-- src/parser.rs 1908: `patterns`. -/
abbrev v_patterns : Var := 115
/-- src/parser.rs 1912: `or`. -/
abbrev v_or : Var := 116
/-- src/parser.rs 1914: `right_patterns`. -/
abbrev v_right_patterns : Var := 117
/-- src/parser.rs 1939: `suffixes`. -/
abbrev v_suffixes : Var := 118
/-- src/parser.rs 1959: `quantifier`. -/
abbrev v_quantifier : Var := 119
/-- src/parser.rs 1975: `strict_exists`. -/
abbrev v_strict_exists : Var := 120
/-- src/parser.rs 1976: `strict`. -/
abbrev v_strict : Var := 121
/-- src/parser.rs 1982: `corresponding`. -/
abbrev v_corresponding : Var := 122
/-- src/parser.rs 2158: `where_`. -/
abbrev v_where_ : Var := 123
/-- src/parser.rs 2185: `qualify`. -/
abbrev v_qualify : Var := 124
/-- src/parser.rs 2265: `pipe`. -/
abbrev v_pipe : Var := 125
/-- src/parser.rs 2317: `keywords`. -/
abbrev v_keywords : Var := 126
/-- src/parser.rs 2329: `temp`. -/
abbrev v_temp : Var := 127
/-- src/parser.rs 2330: `kw`. -/
abbrev v_kw : Var := 128
/-- src/parser.rs 2481: `include_or_exclude`. -/
abbrev v_include_or_exclude : Var := 129
/-- src/parser.rs 2515: `insert`. -/
abbrev v_insert : Var := 130
/-- src/parser.rs 2531: `values`. -/
abbrev v_values : Var := 131
/-- src/parser.rs 2532: `lparens`. -/
abbrev v_lparens : Var := 132
/-- src/parser.rs 2558: `delete`. -/
abbrev v_delete : Var := 133
/-- src/parser.rs 2564: `table_name`. -/
abbrev v_table_name : Var := 134
/-- src/parser.rs 2589: `truncate`. -/
abbrev v_truncate : Var := 135
/-- src/parser.rs 2601: `update`. -/
abbrev v_update : Var := 136
/-- src/parser.rs 2607: `set`. -/
abbrev v_set : Var := 137
/-- src/parser.rs 2635: `merge`. -/
abbrev v_merge : Var := 138
/-- src/parser.rs 2643: `using`. -/
abbrev v_using : Var := 139
/-- src/parser.rs 2662: `whens`. -/
abbrev v_whens : Var := 140
/-- src/parser.rs 2665: `when`. -/
abbrev v_when : Var := 141
/-- src/parser.rs 2676: `target`. -/
abbrev v_target : Var := 142
/-- src/parser.rs 2681: `and`. -/
abbrev v_and : Var := 143
/-- src/parser.rs 2683: `cond`. -/
abbrev v_cond : Var := 144
/-- src/parser.rs 2688: `then`. -/
abbrev v_then : Var := 145
/-- src/parser.rs 45: `stmt`. -/
abbrev v_stmt : Var := 146
/-- src/parser.rs 2717: `create`. -/
abbrev v_create : Var := 147
/-- src/parser.rs 2765: `what`. -/
abbrev v_what : Var := 148
/-- src/parser.rs 2784: `all`. -/
abbrev v_all : Var := 149
/-- src/parser.rs 2814: `external`. -/
abbrev v_external : Var := 150
/-- src/parser.rs 2815: `snapshot`. -/
abbrev v_snapshot : Var := 151
/-- src/parser.rs 2901: `clone`. -/
abbrev v_clone : Var := 152
/-- src/parser.rs 2926: `materialized`. -/
abbrev v_materialized : Var := 153
/-- src/parser.rs 2948: `column_name_list`. -/
abbrev v_column_name_list : Var := 154
/-- src/parser.rs 2949: `idents`. -/
abbrev v_idents : Var := 155
/-- src/parser.rs 2988: `replica`. -/
abbrev v_replica : Var := 156
/-- src/parser.rs 2990: `of`. -/
abbrev v_of : Var := 157
/-- src/parser.rs 3012: `is_tvf`. -/
abbrev v_is_tvf : Var := 158
/-- src/parser.rs 3045: `returns`. -/
abbrev v_returns : Var := 159
/-- src/parser.rs 3100: `language`. -/
abbrev v_language : Var := 160
/-- src/parser.rs 3156: `security`. -/
abbrev v_security : Var := 161
/-- src/parser.rs 3158: `external_security`. -/
abbrev v_external_security : Var := 162
/-- src/parser.rs 3220: `to`. -/
abbrev v_to : Var := 163
/-- src/parser.rs 3262: `input`. -/
abbrev v_input : Var := 164
/-- src/parser.rs 3272: `output`. -/
abbrev v_output : Var := 165
/-- src/parser.rs 3282: `remote`. -/
abbrev v_remote : Var := 166
/-- src/parser.rs 3329: `alter`. -/
abbrev v_alter : Var := 167
/-- src/parser.rs 3369: `drop`. -/
abbrev v_drop : Var := 168
/-- src/parser.rs 3358: `add`. -/
abbrev v_add : Var := 169
/-- src/parser.rs 3514: `drop_columns`. -/
abbrev v_drop_columns : Var := 170
/-- src/parser.rs 3517: `drop_column`. -/
abbrev v_drop_column : Var := 171
/-- src/parser.rs 3520: `pk`. -/
abbrev v_pk : Var := 172
/-- src/parser.rs 3484: `rename_columns`. -/
abbrev v_rename_columns : Var := 173
/-- src/parser.rs 3487: `rename`. -/
abbrev v_rename : Var := 174
/-- src/parser.rs 3492: `if_`. -/
abbrev v_if_ : Var := 175
/-- src/parser.rs 3433: `add_columns`. -/
abbrev v_add_columns : Var := 176
/-- src/parser.rs 3436: `add_column`. -/
abbrev v_add_column : Var := 177
/-- src/parser.rs 3456: `add_constraints`. -/
abbrev v_add_constraints : Var := 178
/-- src/parser.rs 3459: `add_constraint`. -/
abbrev v_add_constraint : Var := 179
/-- src/parser.rs 3628: `vector`. -/
abbrev v_vector : Var := 180
/-- src/parser.rs 3646: `operation`. -/
abbrev v_operation : Var := 181
/-- src/parser.rs 3671: `alter_column`. -/
abbrev v_alter_column : Var := 182
/-- src/parser.rs 3844: `undrop`. -/
abbrev v_undrop : Var := 183
/-- src/parser.rs 3861: `grant`. -/
abbrev v_grant : Var := 184
/-- src/parser.rs 3882: `revoke`. -/
abbrev v_revoke : Var := 185
/-- src/parser.rs 3931: `declare`. -/
abbrev v_declare : Var := 186
/-- src/parser.rs 3980: `execute`. -/
abbrev v_execute : Var := 187
/-- src/parser.rs 3990: `into`. -/
abbrev v_into : Var := 188
/-- src/parser.rs 4021: `begin`. -/
abbrev v_begin : Var := 189
/-- src/parser.rs 4032: `exception`. -/
abbrev v_exception : Var := 190
/-- src/parser.rs 4036: `error`. -/
abbrev v_error : Var := 191
/-- src/parser.rs 4063: `elseifs`. -/
abbrev v_elseifs : Var := 192
/-- src/parser.rs 4066: `elseif`. -/
abbrev v_elseif : Var := 193
/-- src/parser.rs 4088: `end`. -/
abbrev v_end : Var := 194
/-- src/parser.rs 4098: `label`. -/
abbrev v_label : Var := 195
/-- src/parser.rs 4100: `colon`. -/
abbrev v_colon : Var := 196
/-- src/parser.rs 4141: `loop_`. -/
abbrev v_loop_ : Var := 197
/-- src/parser.rs 4157: `repeat`. -/
abbrev v_repeat : Var := 198
/-- src/parser.rs 4176: `while_`. -/
abbrev v_while_ : Var := 199
/-- src/parser.rs 4237: `raise`. -/
abbrev v_raise : Var := 200
/-- src/parser.rs 4255: `case`. -/
abbrev v_case : Var := 201
/-- src/parser.rs 4303: `call`. -/
abbrev v_call : Var := 202
/-- src/parser.rs 4305: `procedure`. -/
abbrev v_procedure : Var := 203
/-- src/parser.rs 4315: `assert`. -/
abbrev v_assert : Var := 204
/-- src/parser.rs 4338: `export`. -/
abbrev v_export : Var := 205
/-- src/parser.rs 4375: `load`. -/
abbrev v_load : Var := 206
/-- src/parser.rs 4384: `op`. -/
abbrev v_op : Var := 207
/-- src/parser.rs 4386: `o`. -/
abbrev v_o : Var := 208

end Verif
