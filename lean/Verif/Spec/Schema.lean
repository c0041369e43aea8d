import Verif.Model.Names
/-! Generated by tools/schema.py from the TypeScript declarations in /repo/src/types.rs. -/
namespace Verif.Spec

/-- How a child is declared: `Node` or `NodeVec`. -/
inductive Kind
  | node | vec
  deriving DecidableEq, Repr

/-- The children declared for each `node_type`: all keys of the intersected object types, without those
declared `undefined`.  A type with no declaration (`Unknown`) has none. -/
def declared : NodeType → List (Key × Kind)
  -- src/types.rs 414-422
  | .AccessOperator => [
    (.k_alias, .node), (.k_as, .node), (.k_comma, .node), (.k_leading_comments, .vec),
    (.k_left, .node), (.k_null_order, .vec), (.k_order, .node), (.k_right, .node),
    (.k_rparen, .node), (.k_trailing_comments, .vec)]
  -- src/types.rs 244-252
  | .AddColumnClause => [
    (.k_comma, .node), (.k_if_not_exists, .vec), (.k_leading_comments, .vec),
    (.k_trailing_comments, .vec), (.k_type_declaration, .node), (.k_what, .node)]
  -- src/types.rs 254-260
  | .AddConstraintClause => [
    (.k_comma, .node), (.k_leading_comments, .vec), (.k_trailing_comments, .vec), (.k_what, .node)]
  -- src/types.rs 262-267
  | .AggregatePipeOperator => [
    (.k_exprs, .vec), (.k_groupby, .node), (.k_keywords, .node), (.k_leading_comments, .vec),
    (.k_trailing_comments, .vec)]
  -- src/types.rs 279-296
  | .AlterColumnStatement => [
    (.k_data_type, .vec), (.k_default, .node), (.k_drop_default, .vec), (.k_drop_not_null, .vec),
    (.k_ident, .node), (.k_if_exists, .vec), (.k_leading_comments, .vec), (.k_options, .node),
    (.k_set, .node), (.k_trailing_comments, .vec), (.k_type, .node), (.k_what, .node)]
  -- src/types.rs 269-277
  | .AlterBICapacityStatement => [
    (.k_ident, .node), (.k_leading_comments, .vec), (.k_options, .node), (.k_semicolon, .node),
    (.k_set, .node), (.k_trailing_comments, .vec), (.k_what, .node)]
  -- src/types.rs 298-307
  | .AlterModelStatement => [
    (.k_ident, .node), (.k_if_exists, .vec), (.k_leading_comments, .vec), (.k_options, .node),
    (.k_semicolon, .node), (.k_set, .node), (.k_trailing_comments, .vec), (.k_what, .node)]
  -- src/types.rs 309-316
  | .AlterOrganizationStatement => [
    (.k_leading_comments, .vec), (.k_options, .node), (.k_semicolon, .node), (.k_set, .node),
    (.k_trailing_comments, .vec), (.k_what, .node)]
  -- src/types.rs 352-360
  | .AlterTableDropClause => [
    (.k_comma, .node), (.k_ident, .node), (.k_if_exists, .vec), (.k_leading_comments, .vec),
    (.k_trailing_comments, .vec), (.k_what, .node)]
  -- src/types.rs 318-326
  | .AlterProjectStatement => [
    (.k_ident, .node), (.k_leading_comments, .vec), (.k_options, .node), (.k_semicolon, .node),
    (.k_set, .node), (.k_trailing_comments, .vec), (.k_what, .node)]
  -- src/types.rs 328-336
  | .AlterReservationStatement => [
    (.k_ident, .node), (.k_leading_comments, .vec), (.k_options, .node), (.k_semicolon, .node),
    (.k_set, .node), (.k_trailing_comments, .vec), (.k_what, .node)]
  -- src/types.rs 338-350
  | .AlterSchemaStatement => [
    (.k_add, .node), (.k_default_collate, .node), (.k_drop, .node), (.k_ident, .node),
    (.k_if_exists, .vec), (.k_leading_comments, .vec), (.k_options, .node), (.k_semicolon, .node),
    (.k_set, .node), (.k_trailing_comments, .vec), (.k_what, .node)]
  -- src/types.rs 362-386
  | .AlterTableStatement => [
    (.k_add_columns, .vec), (.k_add_constraints, .vec), (.k_alter_column_stmt, .node),
    (.k_default_collate, .node), (.k_drop_columns, .vec), (.k_ident, .node), (.k_if_exists, .vec),
    (.k_leading_comments, .vec), (.k_options, .node), (.k_rename, .node), (.k_rename_columns, .vec),
    (.k_semicolon, .node), (.k_set, .node), (.k_to, .node), (.k_trailing_comments, .vec),
    (.k_what, .node)]
  -- src/types.rs 388-397
  | .AlterVectorIndexStatement => [
    (.k_ident, .node), (.k_if_exists, .vec), (.k_leading_comments, .vec), (.k_on, .node),
    (.k_operation, .node), (.k_semicolon, .node), (.k_trailing_comments, .vec), (.k_what, .node)]
  -- src/types.rs 399-412
  | .AlterViewStatement => [
    (.k_alter_column_stmt, .node), (.k_ident, .node), (.k_if_exists, .vec),
    (.k_leading_comments, .vec), (.k_materialized, .node), (.k_options, .node),
    (.k_semicolon, .node), (.k_set, .node), (.k_trailing_comments, .vec), (.k_what, .node)]
  -- src/types.rs 424-431
  | .ArrayLiteral => [
    (.k_alias, .node), (.k_as, .node), (.k_comma, .node), (.k_exprs, .vec),
    (.k_leading_comments, .vec), (.k_null_order, .vec), (.k_order, .node), (.k_rparen, .node),
    (.k_trailing_comments, .vec), (.k_type, .node)]
  -- src/types.rs 433-440
  | .AssertStatement => [
    (.k_as, .node), (.k_description, .node), (.k_expr, .node), (.k_leading_comments, .vec),
    (.k_semicolon, .node), (.k_trailing_comments, .vec)]
  -- src/types.rs 442-450
  | .Asterisk => [
    (.k_alias, .node), (.k_as, .node), (.k_comma, .node), (.k_except, .node),
    (.k_leading_comments, .vec), (.k_replace, .node), (.k_trailing_comments, .vec)]
  -- src/types.rs 452-454
  | .BasePipeOperator => [
    (.k_exprs, .vec), (.k_keywords, .node), (.k_leading_comments, .vec),
    (.k_trailing_comments, .vec)]
  -- src/types.rs 456-464
  | .BinaryOperator => [
    (.k_alias, .node), (.k_as, .node), (.k_comma, .node), (.k_leading_comments, .vec),
    (.k_left, .node), (.k_not, .node), (.k_null_order, .vec), (.k_order, .node),
    (.k_quantifier, .node), (.k_right, .node), (.k_trailing_comments, .vec)]
  -- src/types.rs 466-474
  | .BeginStatement => [
    (.k_colon, .node), (.k_end, .node), (.k_exception_when_error, .vec),
    (.k_leading_comments, .vec), (.k_leading_label, .node), (.k_semicolon, .node), (.k_stmts, .vec),
    (.k_then, .node), (.k_trailing_comments, .vec), (.k_trailing_label, .node)]
  -- src/types.rs 476-485
  | .BetweenOperator => [
    (.k_alias, .node), (.k_and, .node), (.k_as, .node), (.k_comma, .node),
    (.k_leading_comments, .vec), (.k_left, .node), (.k_not, .node), (.k_null_order, .vec),
    (.k_order, .node), (.k_right_max, .node), (.k_right_min, .node), (.k_trailing_comments, .vec)]
  -- src/types.rs 487-489
  | .BooleanLiteral => [
    (.k_alias, .node), (.k_as, .node), (.k_comma, .node), (.k_leading_comments, .vec),
    (.k_null_order, .vec), (.k_order, .node), (.k_trailing_comments, .vec)]
  -- src/types.rs 491-496
  | .BreakContinueStatement => [
    (.k_label, .node), (.k_leading_comments, .vec), (.k_semicolon, .node),
    (.k_trailing_comments, .vec)]
  -- src/types.rs 498-500
  | .CallingFunction => [
    (.k_alias, .node), (.k_args, .vec), (.k_as, .node), (.k_comma, .node), (.k_distinct, .node),
    (.k_func, .node), (.k_having, .node), (.k_ignore_nulls, .vec), (.k_leading_comments, .vec),
    (.k_limit, .node), (.k_null_order, .vec), (.k_order, .node), (.k_orderby, .node),
    (.k_over, .node), (.k_rparen, .node), (.k_trailing_comments, .vec)]
  -- src/types.rs 502-516
  | .CallingTableFunction => [
    (.k_alias, .node), (.k_args, .vec), (.k_as, .node), (.k_func, .node),
    (.k_leading_comments, .vec), (.k_match_recognize, .node), (.k_pivot, .node), (.k_rparen, .node),
    (.k_trailing_comments, .vec), (.k_unpivot, .node), (.k_with_offset, .node)]
  -- src/types.rs 518-532
  | .CallingUnnest => [
    (.k_alias, .node), (.k_args, .vec), (.k_as, .node), (.k_func, .node),
    (.k_leading_comments, .vec), (.k_match_recognize, .node), (.k_pivot, .node), (.k_rparen, .node),
    (.k_trailing_comments, .vec), (.k_unpivot, .node), (.k_with_offset, .node)]
  -- src/types.rs 534-539
  | .CallStatement => [
    (.k_leading_comments, .vec), (.k_procedure, .node), (.k_semicolon, .node),
    (.k_trailing_comments, .vec)]
  -- src/types.rs 596-609
  | .Constraint => [
    (.k_columns, .node), (.k_comma, .node), (.k_constraint, .node), (.k_enforced, .node),
    (.k_ident, .node), (.k_if_not_exists, .vec), (.k_key, .node), (.k_leading_comments, .vec),
    (.k_references, .node), (.k_trailing_comments, .vec)]
  -- src/types.rs 541-548
  | .CaseExpr => [
    (.k_alias, .node), (.k_arms, .vec), (.k_as, .node), (.k_comma, .node), (.k_end, .node),
    (.k_expr, .node), (.k_leading_comments, .vec), (.k_null_order, .vec), (.k_order, .node),
    (.k_trailing_comments, .vec)]
  -- src/types.rs 550-557
  | .CaseExprArm => [
    (.k_expr, .node), (.k_leading_comments, .vec), (.k_result, .node), (.k_then, .node),
    (.k_trailing_comments, .vec)]
  -- src/types.rs 559-566
  | .CaseStatement => [
    (.k_arms, .vec), (.k_end_case, .vec), (.k_expr, .node), (.k_leading_comments, .vec),
    (.k_semicolon, .node), (.k_trailing_comments, .vec)]
  -- src/types.rs 568-575
  | .CaseStatementArm => [
    (.k_expr, .node), (.k_leading_comments, .vec), (.k_stmts, .vec), (.k_then, .node),
    (.k_trailing_comments, .vec)]
  -- src/types.rs 577-585
  | .CastArgument => [
    (.k_cast_from, .node), (.k_cast_to, .node), (.k_format, .node), (.k_leading_comments, .vec),
    (.k_trailing_comments, .vec)]
  -- src/types.rs 611-630
  | .CreateFunctionStatement => [
    (.k_aggregate, .node), (.k_as, .node), (.k_connection, .node), (.k_determinism, .vec),
    (.k_group, .node), (.k_ident, .node), (.k_if_not_exists, .vec), (.k_language, .node),
    (.k_leading_comments, .vec), (.k_options, .node), (.k_or_replace, .vec), (.k_remote, .node),
    (.k_returns, .node), (.k_semicolon, .node), (.k_table, .node), (.k_temp, .node),
    (.k_trailing_comments, .vec), (.k_what, .node)]
  -- src/types.rs 706-720
  | .CreateIndexStatement => [
    (.k_column_group, .node), (.k_ident, .node), (.k_if_not_exists, .vec),
    (.k_leading_comments, .vec), (.k_on, .node), (.k_options, .node), (.k_or_replace, .vec),
    (.k_partitionby, .node), (.k_semicolon, .node), (.k_storing, .node), (.k_tablename, .node),
    (.k_trailing_comments, .vec), (.k_what, .node)]
  -- src/types.rs 632-647
  | .CreateModelStatement => [
    (.k_ident, .node), (.k_if_not_exists, .vec), (.k_input, .node), (.k_leading_comments, .vec),
    (.k_options, .node), (.k_or_replace, .vec), (.k_output, .node), (.k_query, .node),
    (.k_remote, .node), (.k_semicolon, .node), (.k_trailing_comments, .vec),
    (.k_training_data_custom_holiday, .node), (.k_transform, .node), (.k_what, .node)]
  -- src/types.rs 649-664
  | .CreateProcedureStatement => [
    (.k_as, .node), (.k_external, .node), (.k_group, .node), (.k_ident, .node),
    (.k_if_not_exists, .vec), (.k_language, .node), (.k_leading_comments, .vec),
    (.k_options, .node), (.k_or_replace, .vec), (.k_semicolon, .node), (.k_stmt, .node),
    (.k_trailing_comments, .vec), (.k_what, .node), (.k_with_connection, .node)]
  -- src/types.rs 666-676
  | .CreateReservationStatement => [
    (.k_as, .node), (.k_ident, .node), (.k_json, .node), (.k_json_string, .node),
    (.k_leading_comments, .vec), (.k_options, .node), (.k_semicolon, .node),
    (.k_trailing_comments, .vec), (.k_what, .node)]
  -- src/types.rs 678-691
  | .CreateRowAccessPolicyStatement => [
    (.k_filter, .node), (.k_grant, .node), (.k_ident, .node), (.k_if_not_exists, .vec),
    (.k_leading_comments, .vec), (.k_on, .node), (.k_or_replace, .vec), (.k_semicolon, .node),
    (.k_to, .node), (.k_trailing_comments, .vec), (.k_using, .node), (.k_what, .vec)]
  -- src/types.rs 693-704
  | .CreateSchemaStatement => [
    (.k_default_collate, .node), (.k_external, .node), (.k_ident, .node), (.k_if_not_exists, .vec),
    (.k_leading_comments, .vec), (.k_options, .node), (.k_semicolon, .node),
    (.k_trailing_comments, .vec), (.k_what, .node), (.k_with_connection, .node)]
  -- src/types.rs 722-744
  | .CreateTableStatement => [
    (.k_as, .node), (.k_clone, .node), (.k_clusterby, .node), (.k_column_schema_group, .node),
    (.k_default_collate, .node), (.k_external, .node), (.k_ident, .node), (.k_if_not_exists, .vec),
    (.k_leading_comments, .vec), (.k_like_or_copy, .node), (.k_options, .node),
    (.k_or_replace, .vec), (.k_partitionby, .node), (.k_semicolon, .node), (.k_snapshot, .node),
    (.k_source_table, .node), (.k_temp, .node), (.k_trailing_comments, .vec), (.k_what, .node),
    (.k_with_connection, .node), (.k_with_partition_columns, .node)]
  -- src/types.rs 746-760
  | .CreateViewStatement => [
    (.k_as, .node), (.k_clusterby, .node), (.k_column_name_list, .node), (.k_ident, .node),
    (.k_if_not_exists, .vec), (.k_leading_comments, .vec), (.k_materialized, .node),
    (.k_options, .node), (.k_or_replace, .vec), (.k_partitionby, .node), (.k_semicolon, .node),
    (.k_trailing_comments, .vec), (.k_what, .node)]
  -- src/types.rs 587-594
  | .Comment => [
]
  -- src/types.rs 762-769
  | .DeclareStatement => [
    (.k_default, .node), (.k_idents, .vec), (.k_leading_comments, .vec), (.k_semicolon, .node),
    (.k_trailing_comments, .vec), (.k_variable_type, .node)]
  -- src/types.rs 771-778
  | .DeleteStatement => [
    (.k_from, .node), (.k_leading_comments, .vec), (.k_semicolon, .node), (.k_table_name, .node),
    (.k_trailing_comments, .vec), (.k_where, .node)]
  -- src/types.rs 780-787
  | .DifferentialPrivacyClause => [
    (.k_differential_privacy, .node), (.k_leading_comments, .vec), (.k_options, .node),
    (.k_trailing_comments, .vec)]
  -- src/types.rs 789-795
  | .DotOperator => [
    (.k_alias, .node), (.k_as, .node), (.k_comma, .node), (.k_for_system_time_as_of, .node),
    (.k_leading_comments, .vec), (.k_left, .node), (.k_match_recognize, .node),
    (.k_null_order, .vec), (.k_order, .node), (.k_pivot, .node), (.k_right, .node),
    (.k_tablesample, .node), (.k_trailing_comments, .vec), (.k_unpivot, .node),
    (.k_with_offset, .node)]
  -- src/types.rs 807-819
  | .DropStatement => [
    (.k_cascade_or_restrict, .node), (.k_external, .node), (.k_ident, .node), (.k_if_exists, .vec),
    (.k_leading_comments, .vec), (.k_materialized, .node), (.k_on, .node), (.k_semicolon, .node),
    (.k_table, .node), (.k_trailing_comments, .vec), (.k_what, .node)]
  -- src/types.rs 797-805
  | .DropRowAccessPolicyStatement => [
    (.k_ident, .node), (.k_if_exists, .vec), (.k_leading_comments, .vec), (.k_on, .node),
    (.k_semicolon, .node), (.k_trailing_comments, .vec), (.k_what, .vec)]
  -- src/types.rs 821-828
  | .ElseIfClause => [
    (.k_condition, .node), (.k_leading_comments, .vec), (.k_then, .node),
    (.k_trailing_comments, .vec)]
  -- src/types.rs 837-843
  | .EOF => [
    (.k_leading_comments, .vec)]
  -- src/types.rs 830-835
  | .EmptyStruct => [
    (.k_alias, .node), (.k_as, .node), (.k_comma, .node), (.k_leading_comments, .vec),
    (.k_null_order, .vec), (.k_order, .node), (.k_rparen, .node), (.k_trailing_comments, .vec)]
  -- src/types.rs 845-853
  | .ExecuteStatement => [
    (.k_immediate, .node), (.k_into, .node), (.k_leading_comments, .vec), (.k_semicolon, .node),
    (.k_sql_expr, .node), (.k_trailing_comments, .vec), (.k_using, .node)]
  -- src/types.rs 855-863
  | .ExportDataStatement => [
    (.k_as, .node), (.k_data, .node), (.k_leading_comments, .vec), (.k_options, .node),
    (.k_semicolon, .node), (.k_trailing_comments, .vec), (.k_with_connection, .node)]
  -- src/types.rs 865-872
  | .ExportModelStatement => [
    (.k_ident, .node), (.k_leading_comments, .vec), (.k_options, .node), (.k_semicolon, .node),
    (.k_trailing_comments, .vec), (.k_what, .node)]
  -- src/types.rs 874-883
  | .ExtractArgument => [
    (.k_at_time_zone, .vec), (.k_extract_datepart, .node), (.k_extract_from, .node),
    (.k_leading_comments, .vec), (.k_time_zone, .node), (.k_trailing_comments, .vec)]
  -- src/types.rs 895-902
  | .ForSystemTimeAsOfClause => [
    (.k_expr, .node), (.k_leading_comments, .vec), (.k_system_time_as_of, .vec),
    (.k_trailing_comments, .vec)]
  -- src/types.rs 885-893
  | .ForStatement => [
    (.k_colon, .node), (.k_do, .node), (.k_end_for, .vec), (.k_ident, .node), (.k_in, .node),
    (.k_leading_comments, .vec), (.k_leading_label, .node), (.k_semicolon, .node),
    (.k_trailing_comments, .vec), (.k_trailing_label, .node)]
  -- src/types.rs 904-910
  | .FromStatement => [
    (.k_expr, .node), (.k_leading_comments, .vec), (.k_semicolon, .node),
    (.k_trailing_comments, .vec), (.k_with, .node)]
  -- src/types.rs 912-918
  | .FunctionChain => [
    (.k_alias, .node), (.k_as, .node), (.k_comma, .node), (.k_leading_comments, .vec),
    (.k_left, .node), (.k_match_recognize, .node), (.k_null_order, .vec), (.k_order, .node),
    (.k_pivot, .node), (.k_right, .node), (.k_trailing_comments, .vec), (.k_unpivot, .node),
    (.k_with_offset, .node)]
  -- src/types.rs 920-929
  | .GrantStatement => [
    (.k_ident, .node), (.k_leading_comments, .vec), (.k_on, .node), (.k_resource_type, .node),
    (.k_roles, .vec), (.k_semicolon, .node), (.k_to, .node), (.k_trailing_comments, .vec)]
  -- src/types.rs 931-939
  | .GroupByExprs => [
    (.k_by, .node), (.k_exprs, .vec), (.k_how, .vec), (.k_leading_comments, .vec),
    (.k_trailing_comments, .vec)]
  -- src/types.rs 963-970
  | .GroupedIdentWithOptions => [
    (.k_idents, .vec), (.k_leading_comments, .vec), (.k_rparen, .node),
    (.k_trailing_comments, .vec)]
  -- src/types.rs 941-947
  | .GroupedExpr => [
    (.k_alias, .node), (.k_as, .node), (.k_comma, .node), (.k_expr, .node),
    (.k_leading_comments, .vec), (.k_match_recognize, .node), (.k_null_order, .vec),
    (.k_order, .node), (.k_pivot, .node), (.k_rparen, .node), (.k_trailing_comments, .vec),
    (.k_unpivot, .node), (.k_with_offset, .node)]
  -- src/types.rs 949-961
  | .GroupedExprs => [
    (.k_as, .node), (.k_comma, .node), (.k_exprs, .vec), (.k_leading_comments, .vec),
    (.k_row_value_alias, .node), (.k_rparen, .node), (.k_trailing_comments, .vec)]
  -- src/types.rs 972-980
  | .GroupedPattern => [
    (.k_leading_comments, .vec), (.k_patterns, .vec), (.k_rparen, .node), (.k_suffixes, .vec),
    (.k_trailing_comments, .vec)]
  -- src/types.rs 982-992
  | .GroupedStatement => [
    (.k_alias, .node), (.k_as, .node), (.k_comma, .node), (.k_leading_comments, .vec),
    (.k_limit, .node), (.k_match_recognize, .node), (.k_null_order, .vec), (.k_order, .node),
    (.k_orderby, .node), (.k_pivot, .node), (.k_rparen, .node), (.k_semicolon, .node),
    (.k_stmt, .node), (.k_trailing_comments, .vec), (.k_unpivot, .node), (.k_with, .node),
    (.k_with_offset, .node)]
  -- src/types.rs 1002-1008
  | .GroupedType => [
    (.k_leading_comments, .vec), (.k_rparen, .node), (.k_trailing_comments, .vec), (.k_type, .node)]
  -- src/types.rs 994-1000
  | .GroupedTypeDeclarationOrConstraints => [
    (.k_declarations, .vec), (.k_leading_comments, .vec), (.k_rparen, .node),
    (.k_trailing_comments, .vec)]
  -- src/types.rs 1102-1105
  | .Keyword => [
    (.k_leading_comments, .vec), (.k_trailing_comments, .vec)]
  -- src/types.rs 1107-1112
  | .KeywordSequence => [
    (.k_leading_comments, .vec), (.k_next_keyword, .node), (.k_trailing_comments, .vec)]
  -- src/types.rs 1114-1119
  | .KeywordWithExpr => [
    (.k_expr, .node), (.k_leading_comments, .vec), (.k_trailing_comments, .vec)]
  -- src/types.rs 1121-1126
  | .KeywordWithExprs => [
    (.k_exprs, .vec), (.k_leading_comments, .vec), (.k_trailing_comments, .vec)]
  -- src/types.rs 1149-1154
  | .KeywordWithType => [
    (.k_leading_comments, .vec), (.k_trailing_comments, .vec), (.k_type, .node)]
  -- src/types.rs 1128-1133
  | .KeywordWithGroupedXXX => [
    (.k_group, .node), (.k_leading_comments, .vec), (.k_trailing_comments, .vec)]
  -- src/types.rs 1135-1140
  | .KeywordWithStatement => [
    (.k_leading_comments, .vec), (.k_stmt, .node), (.k_trailing_comments, .vec)]
  -- src/types.rs 1142-1147
  | .KeywordWithStatements => [
    (.k_leading_comments, .vec), (.k_stmts, .vec), (.k_trailing_comments, .vec)]
  -- src/types.rs 1010-1012
  | .Identifier => [
    (.k_alias, .node), (.k_as, .node), (.k_comma, .node), (.k_for_system_time_as_of, .node),
    (.k_leading_comments, .vec), (.k_match_recognize, .node), (.k_null_order, .vec),
    (.k_order, .node), (.k_pivot, .node), (.k_tablesample, .node), (.k_trailing_comments, .vec),
    (.k_unpivot, .node), (.k_with_offset, .node)]
  -- src/types.rs 1014-1023
  | .IdentWithOptions => [
    (.k_comma, .node), (.k_leading_comments, .vec), (.k_options, .node),
    (.k_trailing_comments, .vec)]
  -- src/types.rs 1025-1034
  | .IfStatement => [
    (.k_condition, .node), (.k_else, .node), (.k_elseifs, .vec), (.k_end_if, .vec),
    (.k_leading_comments, .vec), (.k_semicolon, .node), (.k_then, .node),
    (.k_trailing_comments, .vec)]
  -- src/types.rs 1045-1053
  | .InsertStatement => [
    (.k_columns, .node), (.k_input, .node), (.k_into, .node), (.k_leading_comments, .vec),
    (.k_semicolon, .node), (.k_target_name, .node), (.k_trailing_comments, .vec)]
  -- src/types.rs 1055-1065
  | .IntervalLiteral => [
    (.k_alias, .node), (.k_as, .node), (.k_comma, .node), (.k_date_part, .node), (.k_expr, .node),
    (.k_leading_comments, .vec), (.k_to, .node), (.k_to_date_part, .node),
    (.k_trailing_comments, .vec)]
  -- src/types.rs 1036-1043
  | .InOperator => [
    (.k_alias, .node), (.k_as, .node), (.k_comma, .node), (.k_leading_comments, .vec),
    (.k_left, .node), (.k_not, .node), (.k_null_order, .vec), (.k_order, .node), (.k_right, .node),
    (.k_trailing_comments, .vec)]
  -- src/types.rs 1067-1076
  | .IsDistinctFromOperator => [
    (.k_alias, .node), (.k_as, .node), (.k_comma, .node), (.k_distinct, .node), (.k_from, .node),
    (.k_leading_comments, .vec), (.k_left, .node), (.k_not, .node), (.k_null_order, .vec),
    (.k_order, .node), (.k_right, .node), (.k_trailing_comments, .vec)]
  -- src/types.rs 1078-1091
  | .JoinOperator => [
    (.k_alias, .node), (.k_as, .node), (.k_join_type, .node), (.k_leading_comments, .vec),
    (.k_left, .node), (.k_match_recognize, .node), (.k_on, .node), (.k_outer, .node),
    (.k_pivot, .node), (.k_right, .node), (.k_trailing_comments, .vec), (.k_unpivot, .node),
    (.k_using, .node), (.k_with_offset, .node)]
  -- src/types.rs 1093-1100
  | .JoinPipeOperator => [
    (.k_exprs, .vec), (.k_keywords, .node), (.k_leading_comments, .vec), (.k_method, .node),
    (.k_on, .node), (.k_trailing_comments, .vec), (.k_using, .node)]
  -- src/types.rs 1156-1162
  | .LimitClause => [
    (.k_expr, .node), (.k_leading_comments, .vec), (.k_offset, .node), (.k_trailing_comments, .vec)]
  -- src/types.rs 1164-1169
  | .LimitPipeOperator => [
    (.k_exprs, .vec), (.k_keywords, .node), (.k_leading_comments, .vec), (.k_offset, .node),
    (.k_trailing_comments, .vec)]
  -- src/types.rs 1210-1229
  | .LoadStatement => [
    (.k_clusterby, .node), (.k_column_group, .node), (.k_connection, .node),
    (.k_connection_name, .node), (.k_data, .node), (.k_files, .node), (.k_from, .node),
    (.k_from_files, .node), (.k_ident, .node), (.k_into, .node), (.k_leading_comments, .vec),
    (.k_options, .node), (.k_overwrite_partitions, .node), (.k_partitionby, .node),
    (.k_semicolon, .node), (.k_trailing_comments, .vec), (.k_with, .node),
    (.k_with_partition_columns, .node)]
  -- src/types.rs 1202-1208
  | .LoopStatement => [
    (.k_colon, .node), (.k_end_loop, .vec), (.k_leading_comments, .vec), (.k_leading_label, .node),
    (.k_semicolon, .node), (.k_stmts, .vec), (.k_trailing_comments, .vec),
    (.k_trailing_label, .node)]
  -- src/types.rs 1171-1179
  | .MatchRecognizeClause => [
    (.k_alias, .node), (.k_as, .node), (.k_config, .node), (.k_leading_comments, .vec),
    (.k_trailing_comments, .vec)]
  -- src/types.rs 1181-1194
  | .MatchRecognizeConfig => [
    (.k_define, .node), (.k_leading_comments, .vec), (.k_measures, .node), (.k_options, .node),
    (.k_orderby, .node), (.k_partitionby, .node), (.k_pattern, .node), (.k_rparen, .node),
    (.k_skip_rule, .node), (.k_trailing_comments, .vec)]
  -- src/types.rs 1196-1200
  | .MatchRecognizePipeOperator => [
    (.k_alias, .node), (.k_as, .node), (.k_config, .node), (.k_leading_comments, .vec),
    (.k_trailing_comments, .vec)]
  -- src/types.rs 1231-1240
  | .MergeStatement => [
    (.k_into, .node), (.k_leading_comments, .vec), (.k_on, .node), (.k_semicolon, .node),
    (.k_table_name, .node), (.k_trailing_comments, .vec), (.k_using, .node), (.k_whens, .vec)]
  -- src/types.rs 1242-1247
  | .MultiTokenIdentifier => [
    (.k_alias, .node), (.k_as, .node), (.k_comma, .node), (.k_for_system_time_as_of, .node),
    (.k_leading_comments, .vec), (.k_match_recognize, .node), (.k_null_order, .vec),
    (.k_order, .node), (.k_pivot, .node), (.k_tablesample, .node), (.k_trailing_comments, .vec),
    (.k_trailing_idents, .vec), (.k_unpivot, .node), (.k_with_offset, .node)]
  -- src/types.rs 1253-1255
  | .NumericLiteral => [
    (.k_alias, .node), (.k_as, .node), (.k_comma, .node), (.k_leading_comments, .vec),
    (.k_null_order, .vec), (.k_order, .node), (.k_trailing_comments, .vec)]
  -- src/types.rs 1249-1251
  | .NullLiteral => [
    (.k_alias, .node), (.k_as, .node), (.k_comma, .node), (.k_leading_comments, .vec),
    (.k_null_order, .vec), (.k_order, .node), (.k_trailing_comments, .vec)]
  -- src/types.rs 1257-1264
  | .OrPattern => [
    (.k_leading_comments, .vec), (.k_left, .vec), (.k_right, .vec), (.k_trailing_comments, .vec)]
  -- src/types.rs 1267-1273
  | .OverClause => [
    (.k_leading_comments, .vec), (.k_trailing_comments, .vec), (.k_window, .node)]
  -- src/types.rs 1275-1282
  | .OverwritePartitionsClause => [
    (.k_grouped_expr, .node), (.k_leading_comments, .vec), (.k_overwrite, .node),
    (.k_trailing_comments, .vec)]
  -- src/types.rs 1284-1286
  | .Parameter => [
    (.k_alias, .node), (.k_as, .node), (.k_comma, .node), (.k_for_system_time_as_of, .node),
    (.k_leading_comments, .vec), (.k_match_recognize, .node), (.k_null_order, .vec),
    (.k_order, .node), (.k_pivot, .node), (.k_tablesample, .node), (.k_trailing_comments, .vec),
    (.k_unpivot, .node), (.k_with_offset, .node)]
  -- src/types.rs 1288-1294
  | .Pattern => [
    (.k_leading_comments, .vec), (.k_suffixes, .vec), (.k_trailing_comments, .vec)]
  -- src/types.rs 1296-1302
  | .PatternClause => [
    (.k_leading_comments, .vec), (.k_pattern, .node), (.k_trailing_comments, .vec)]
  -- src/types.rs 1304-1313
  | .PatternQuantifier => [
    (.k_comma, .node), (.k_leading_comments, .vec), (.k_max, .node), (.k_min, .node),
    (.k_rbrace, .node), (.k_trailing_comments, .vec)]
  -- src/types.rs 1315-1321
  | .PipeStatement => [
    (.k_leading_comments, .vec), (.k_left, .node), (.k_right, .node), (.k_semicolon, .node),
    (.k_trailing_comments, .vec)]
  -- src/types.rs 1343-1352
  | .PivotConfig => [
    (.k_exprs, .vec), (.k_for, .node), (.k_in, .node), (.k_leading_comments, .vec),
    (.k_rparen, .node), (.k_trailing_comments, .vec)]
  -- src/types.rs 1333-1341
  | .PivotOperator => [
    (.k_alias, .node), (.k_as, .node), (.k_config, .node), (.k_leading_comments, .vec),
    (.k_trailing_comments, .vec)]
  -- src/types.rs 1323-1331
  | .PivotPipeOperator => [
    (.k_alias, .node), (.k_as, .node), (.k_config, .node), (.k_keywords, .node),
    (.k_leading_comments, .vec), (.k_trailing_comments, .vec)]
  -- src/types.rs 1354-1359
  | .RaiseStatement => [
    (.k_leading_comments, .vec), (.k_semicolon, .node), (.k_trailing_comments, .vec),
    (.k_using, .node)]
  -- src/types.rs 1361-1366
  | .RangeLiteral => [
    (.k_alias, .node), (.k_as, .node), (.k_comma, .node), (.k_leading_comments, .vec),
    (.k_null_order, .vec), (.k_order, .node), (.k_trailing_comments, .vec), (.k_type, .node)]
  -- src/types.rs 1368-1378
  | .RenameColumnClause => [
    (.k_column, .node), (.k_comma, .node), (.k_ident, .node), (.k_if_exists, .node),
    (.k_leading_comments, .vec), (.k_to, .node), (.k_trailing_comments, .vec)]
  -- src/types.rs 1380-1387
  | .RepeatStatement => [
    (.k_colon, .node), (.k_end_repeat, .vec), (.k_leading_comments, .vec),
    (.k_leading_label, .node), (.k_semicolon, .node), (.k_stmts, .vec),
    (.k_trailing_comments, .vec), (.k_trailing_label, .node), (.k_until, .node)]
  -- src/types.rs 1389-1398
  | .RevokeStatement => [
    (.k_from, .node), (.k_ident, .node), (.k_leading_comments, .vec), (.k_on, .node),
    (.k_resource_type, .node), (.k_roles, .vec), (.k_semicolon, .node),
    (.k_trailing_comments, .vec)]
  -- src/types.rs 1420-1425
  | .SelectPipeOperator => [
    (.k_exprs, .vec), (.k_keywords, .node), (.k_leading_comments, .vec),
    (.k_trailing_comments, .vec), (.k_window, .node)]
  -- src/types.rs 1400-1418
  | .SelectStatement => [
    (.k_as_struct_or_value, .vec), (.k_differential_privacy, .node), (.k_distinct_or_all, .node),
    (.k_exprs, .vec), (.k_from, .node), (.k_groupby, .node), (.k_having, .node),
    (.k_leading_comments, .vec), (.k_limit, .node), (.k_orderby, .node), (.k_qualify, .node),
    (.k_semicolon, .node), (.k_trailing_comments, .vec), (.k_where, .node), (.k_window, .node),
    (.k_with, .node)]
  -- src/types.rs 1428-1439
  | .SetOperator => [
    (.k_by, .node), (.k_corresponding, .node), (.k_distinct_or_all, .node),
    (.k_leading_comments, .vec), (.k_left, .node), (.k_method, .node), (.k_right, .node),
    (.k_semicolon, .node), (.k_trailing_comments, .vec), (.k_with, .node)]
  -- src/types.rs 1441-1446
  | .SetStatement => [
    (.k_expr, .node), (.k_leading_comments, .vec), (.k_semicolon, .node),
    (.k_trailing_comments, .vec)]
  -- src/types.rs 1448-1450
  | .SingleTokenStatement => [
    (.k_leading_comments, .vec), (.k_semicolon, .node), (.k_trailing_comments, .vec)]
  -- src/types.rs 1452-1454
  | .StringLiteral => [
    (.k_alias, .node), (.k_as, .node), (.k_comma, .node), (.k_leading_comments, .vec),
    (.k_null_order, .vec), (.k_order, .node), (.k_trailing_comments, .vec)]
  -- src/types.rs 1456-1463
  | .StructLiteral => [
    (.k_alias, .node), (.k_as, .node), (.k_comma, .node), (.k_exprs, .vec),
    (.k_leading_comments, .vec), (.k_null_order, .vec), (.k_order, .node), (.k_rparen, .node),
    (.k_trailing_comments, .vec), (.k_type, .node)]
  -- src/types.rs 1465-1468
  | .Symbol => [
    (.k_leading_comments, .vec), (.k_trailing_comments, .vec)]
  -- src/types.rs 1470-1477
  | .TableSampleClause => [
    (.k_group, .node), (.k_leading_comments, .vec), (.k_system, .node),
    (.k_trailing_comments, .vec)]
  -- src/types.rs 1479-1485
  | .TableSamplePipeOperator => [
    (.k_group, .node), (.k_keywords, .node), (.k_leading_comments, .vec),
    (.k_trailing_comments, .vec)]
  -- src/types.rs 1487-1495
  | .TableSampleRatio => [
    (.k_expr, .node), (.k_leading_comments, .vec), (.k_percent, .node), (.k_rparen, .node),
    (.k_trailing_comments, .vec)]
  -- src/types.rs 1497-1499
  | .Template => [
    (.k_alias, .node), (.k_as, .node), (.k_comma, .node), (.k_for_system_time_as_of, .node),
    (.k_leading_comments, .vec), (.k_match_recognize, .node), (.k_null_order, .vec),
    (.k_order, .node), (.k_pivot, .node), (.k_tablesample, .node), (.k_trailing_comments, .vec),
    (.k_unpivot, .node), (.k_with_offset, .node)]
  -- src/types.rs 1508-1515
  | .TrainingDataCustomHolidayClause => [
    (.k_custom_holiday, .node), (.k_leading_comments, .vec), (.k_rparen, .node),
    (.k_trailing_comments, .vec), (.k_training_data, .node)]
  -- src/types.rs 1501-1506
  | .TransactionStatement => [
    (.k_leading_comments, .vec), (.k_semicolon, .node), (.k_trailing_comments, .vec),
    (.k_transaction, .node)]
  -- src/types.rs 1517-1523
  | .TruncateStatement => [
    (.k_leading_comments, .vec), (.k_semicolon, .node), (.k_table, .node), (.k_table_name, .node),
    (.k_trailing_comments, .vec)]
  -- src/types.rs 1525-1542
  | .Type => [
    (.k_aggregate, .node), (.k_collate, .node), (.k_constraint, .node), (.k_default, .node),
    (.k_enforced, .node), (.k_leading_comments, .vec), (.k_not_null, .vec), (.k_options, .node),
    (.k_parameter, .node), (.k_primarykey, .node), (.k_references, .node),
    (.k_trailing_comments, .vec), (.k_type, .node), (.k_type_declaration, .node)]
  -- src/types.rs 1544-1552
  | .TypeDeclaration => [
    (.k_comma, .node), (.k_in_out, .node), (.k_leading_comments, .vec),
    (.k_trailing_comments, .vec), (.k_type, .node)]
  -- src/types.rs 1554-1560
  | .UnaryOperator => [
    (.k_alias, .node), (.k_as, .node), (.k_comma, .node), (.k_leading_comments, .vec),
    (.k_null_order, .vec), (.k_order, .node), (.k_right, .node), (.k_trailing_comments, .vec)]
  -- src/types.rs 1562-1569
  | .UndropStatement => [
    (.k_ident, .node), (.k_if_not_exists, .vec), (.k_leading_comments, .vec), (.k_semicolon, .node),
    (.k_trailing_comments, .vec), (.k_what, .node)]
  -- src/types.rs 1571-1578
  | .UnionPipeOperator => [
    (.k_by, .node), (.k_corresponding, .node), (.k_exprs, .vec), (.k_keywords, .node),
    (.k_leading_comments, .vec), (.k_method, .node), (.k_trailing_comments, .vec)]
  -- src/types.rs 1601-1610
  | .UnpivotOperator => [
    (.k_alias, .node), (.k_as, .node), (.k_config, .node), (.k_include_or_exclude_nulls, .vec),
    (.k_leading_comments, .vec), (.k_trailing_comments, .vec)]
  -- src/types.rs 1591-1599
  | .UnpivotPipeOperator => [
    (.k_alias, .node), (.k_as, .node), (.k_config, .node), (.k_keywords, .node),
    (.k_leading_comments, .vec), (.k_trailing_comments, .vec)]
  -- src/types.rs 1580-1589
  | .UnpivotConfig => [
    (.k_expr, .node), (.k_for, .node), (.k_in, .node), (.k_leading_comments, .vec),
    (.k_rparen, .node), (.k_trailing_comments, .vec)]
  -- src/types.rs 1612-1620
  | .UpdateStatement => [
    (.k_from, .node), (.k_leading_comments, .vec), (.k_semicolon, .node), (.k_set, .node),
    (.k_table_name, .node), (.k_trailing_comments, .vec), (.k_where, .node)]
  -- src/types.rs 1622-1631
  | .WhenClause => [
    (.k_and, .node), (.k_by_target_or_source, .vec), (.k_leading_comments, .vec),
    (.k_matched, .node), (.k_not, .node), (.k_then, .node), (.k_trailing_comments, .vec)]
  -- src/types.rs 1633-1640
  | .WhileStatement => [
    (.k_colon, .node), (.k_condition, .node), (.k_do, .node), (.k_end_while, .vec),
    (.k_leading_comments, .vec), (.k_leading_label, .node), (.k_semicolon, .node),
    (.k_trailing_comments, .vec), (.k_trailing_label, .node)]
  -- src/types.rs 1642-1648
  | .WindowClause => [
    (.k_leading_comments, .vec), (.k_trailing_comments, .vec), (.k_window_exprs, .vec)]
  -- src/types.rs 1650-1658
  | .WindowExpr => [
    (.k_as, .node), (.k_comma, .node), (.k_leading_comments, .vec), (.k_trailing_comments, .vec),
    (.k_window, .node)]
  -- src/types.rs 1660-1669
  | .WindowFrameClause => [
    (.k_and, .node), (.k_between, .node), (.k_end, .vec), (.k_leading_comments, .vec),
    (.k_start, .vec), (.k_trailing_comments, .vec)]
  -- src/types.rs 1671-1681
  | .WindowSpecification => [
    (.k_frame, .node), (.k_leading_comments, .vec), (.k_name, .node), (.k_orderby, .node),
    (.k_partitionby, .node), (.k_rparen, .node), (.k_trailing_comments, .vec)]
  -- src/types.rs 1683-1690
  | .WithClause => [
    (.k_leading_comments, .vec), (.k_queries, .vec), (.k_recursive, .node),
    (.k_trailing_comments, .vec)]
  -- src/types.rs 1692-1700
  | .WithOffsetClause => [
    (.k_alias, .node), (.k_as, .node), (.k_leading_comments, .vec), (.k_offset, .node),
    (.k_trailing_comments, .vec)]
  -- src/types.rs 1702-1706
  | .WithPipeOperator => [
    (.k_leading_comments, .vec), (.k_queries, .vec), (.k_recursive, .node),
    (.k_trailing_comments, .vec)]
  -- src/types.rs 1708-1715
  | .WithPartitionColumnsClause => [
    (.k_column_schema_group, .node), (.k_leading_comments, .vec), (.k_partition_columns, .vec),
    (.k_trailing_comments, .vec)]
  -- src/types.rs 1717-1725
  | .WithQuery => [
    (.k_as, .node), (.k_comma, .node), (.k_leading_comments, .vec), (.k_stmt, .node),
    (.k_trailing_comments, .vec)]
  -- src/types.rs 1727-1734
  | .XXXByExprs => [
    (.k_by, .node), (.k_exprs, .vec), (.k_leading_comments, .vec), (.k_trailing_comments, .vec)]
  | _ => []

/-- The children declared without `?` for each `node_type`. -/
def mandatory : NodeType → List Key
  | .AccessOperator => [
    .k_left, .k_right, .k_rparen]
  | .AddColumnClause => [
    .k_type_declaration, .k_what]
  | .AlterColumnStatement => [
    .k_ident, .k_set, .k_what]
  | .AlterBICapacityStatement => [
    .k_ident, .k_options, .k_set, .k_what]
  | .AlterModelStatement => [
    .k_ident, .k_options, .k_set, .k_what]
  | .AlterOrganizationStatement => [
    .k_options, .k_set, .k_what]
  | .AlterTableDropClause => [
    .k_what]
  | .AlterProjectStatement => [
    .k_options, .k_set, .k_what]
  | .AlterReservationStatement => [
    .k_ident, .k_options, .k_set, .k_what]
  | .AlterSchemaStatement => [
    .k_ident, .k_what]
  | .AlterTableStatement => [
    .k_ident, .k_what]
  | .AlterVectorIndexStatement => [
    .k_ident, .k_on, .k_operation, .k_what]
  | .AlterViewStatement => [
    .k_ident, .k_what]
  | .ArrayLiteral => [
    .k_exprs, .k_rparen]
  | .AssertStatement => [
    .k_as, .k_description, .k_expr]
  | .BinaryOperator => [
    .k_left, .k_right]
  | .BeginStatement => [
    .k_end]
  | .BetweenOperator => [
    .k_and, .k_left, .k_right_max, .k_right_min]
  | .CallingFunction => [
    .k_func, .k_rparen]
  | .CallingTableFunction => [
    .k_func, .k_rparen, .k_with_offset]
  | .CallingUnnest => [
    .k_func, .k_rparen, .k_with_offset]
  | .CallStatement => [
    .k_procedure]
  | .Constraint => [
    .k_key]
  | .CaseExpr => [
    .k_arms, .k_end]
  | .CaseExprArm => [
    .k_result]
  | .CaseStatement => [
    .k_arms, .k_end_case]
  | .CaseStatementArm => [
    .k_stmts]
  | .CastArgument => [
    .k_cast_from, .k_cast_to]
  | .CreateFunctionStatement => [
    .k_group, .k_ident, .k_what]
  | .CreateIndexStatement => [
    .k_column_group, .k_ident, .k_on, .k_tablename, .k_what]
  | .CreateModelStatement => [
    .k_ident, .k_what]
  | .CreateProcedureStatement => [
    .k_group, .k_ident, .k_what]
  | .CreateReservationStatement => [
    .k_ident, .k_what]
  | .CreateRowAccessPolicyStatement => [
    .k_filter, .k_ident, .k_on, .k_using, .k_what]
  | .CreateSchemaStatement => [
    .k_default_collate, .k_ident, .k_what]
  | .CreateTableStatement => [
    .k_ident, .k_like_or_copy, .k_source_table, .k_what]
  | .CreateViewStatement => [
    .k_as, .k_ident, .k_what]
  | .DeclareStatement => [
    .k_idents]
  | .DeleteStatement => [
    .k_from, .k_table_name, .k_where]
  | .DifferentialPrivacyClause => [
    .k_differential_privacy]
  | .DotOperator => [
    .k_left, .k_right, .k_with_offset]
  | .DropStatement => [
    .k_ident, .k_what]
  | .DropRowAccessPolicyStatement => [
    .k_on, .k_what]
  | .ElseIfClause => [
    .k_condition, .k_then]
  | .EmptyStruct => [
    .k_rparen]
  | .ExecuteStatement => [
    .k_immediate, .k_into, .k_sql_expr]
  | .ExportDataStatement => [
    .k_as, .k_data, .k_options]
  | .ExportModelStatement => [
    .k_ident, .k_what]
  | .ExtractArgument => [
    .k_at_time_zone, .k_extract_datepart, .k_extract_from, .k_time_zone]
  | .ForSystemTimeAsOfClause => [
    .k_expr, .k_system_time_as_of]
  | .ForStatement => [
    .k_do, .k_end_for, .k_ident, .k_in]
  | .FromStatement => [
    .k_expr, .k_with]
  | .FunctionChain => [
    .k_left, .k_right, .k_with_offset]
  | .GrantStatement => [
    .k_ident, .k_on, .k_resource_type, .k_roles, .k_to]
  | .GroupByExprs => [
    .k_by]
  | .GroupedIdentWithOptions => [
    .k_idents, .k_rparen]
  | .GroupedExpr => [
    .k_expr, .k_rparen, .k_with_offset]
  | .GroupedExprs => [
    .k_rparen]
  | .GroupedPattern => [
    .k_patterns, .k_rparen, .k_suffixes]
  | .GroupedStatement => [
    .k_limit, .k_orderby, .k_rparen, .k_stmt, .k_with_offset]
  | .GroupedType => [
    .k_rparen, .k_type]
  | .GroupedTypeDeclarationOrConstraints => [
    .k_declarations, .k_rparen]
  | .KeywordSequence => [
    .k_next_keyword]
  | .KeywordWithExpr => [
    .k_expr]
  | .KeywordWithExprs => [
    .k_exprs]
  | .KeywordWithType => [
    .k_type]
  | .KeywordWithGroupedXXX => [
    .k_group]
  | .KeywordWithStatement => [
    .k_stmt]
  | .KeywordWithStatements => [
    .k_stmts]
  | .Identifier => [
    .k_with_offset]
  | .IfStatement => [
    .k_condition, .k_else, .k_elseifs, .k_end_if, .k_then]
  | .InsertStatement => [
    .k_input]
  | .IntervalLiteral => [
    .k_date_part, .k_expr]
  | .InOperator => [
    .k_left, .k_right]
  | .IsDistinctFromOperator => [
    .k_distinct, .k_from, .k_left, .k_right]
  | .JoinOperator => [
    .k_join_type, .k_left, .k_on, .k_outer, .k_right, .k_using, .k_with_offset]
  | .LimitClause => [
    .k_expr]
  | .LoadStatement => [
    .k_data, .k_files, .k_from, .k_from_files, .k_ident, .k_into]
  | .LoopStatement => [
    .k_end_loop]
  | .MatchRecognizeClause => [
    .k_config]
  | .MatchRecognizeConfig => [
    .k_pattern, .k_rparen]
  | .MatchRecognizePipeOperator => [
    .k_config]
  | .MergeStatement => [
    .k_on, .k_table_name, .k_using, .k_whens]
  | .MultiTokenIdentifier => [
    .k_trailing_idents, .k_with_offset]
  | .OrPattern => [
    .k_left, .k_right]
  | .OverClause => [
    .k_window]
  | .OverwritePartitionsClause => [
    .k_grouped_expr]
  | .Parameter => [
    .k_with_offset]
  | .Pattern => [
    .k_suffixes]
  | .PatternClause => [
    .k_pattern]
  | .PatternQuantifier => [
    .k_rbrace]
  | .PipeStatement => [
    .k_left, .k_right]
  | .PivotConfig => [
    .k_exprs, .k_for, .k_in, .k_rparen]
  | .PivotOperator => [
    .k_config]
  | .PivotPipeOperator => [
    .k_config]
  | .RangeLiteral => [
    .k_type]
  | .RenameColumnClause => [
    .k_column, .k_ident, .k_to]
  | .RepeatStatement => [
    .k_end_repeat, .k_stmts, .k_until]
  | .RevokeStatement => [
    .k_from, .k_ident, .k_on, .k_resource_type, .k_roles]
  | .SelectStatement => [
    .k_exprs]
  | .SetOperator => [
    .k_distinct_or_all, .k_left, .k_right]
  | .SetStatement => [
    .k_expr]
  | .StructLiteral => [
    .k_exprs, .k_rparen]
  | .TableSampleClause => [
    .k_group, .k_system]
  | .TableSampleRatio => [
    .k_expr, .k_percent, .k_rparen]
  | .Template => [
    .k_with_offset]
  | .TrainingDataCustomHolidayClause => [
    .k_custom_holiday, .k_rparen, .k_training_data]
  | .TruncateStatement => [
    .k_table, .k_table_name]
  | .TypeDeclaration => [
    .k_in_out, .k_type]
  | .UnaryOperator => [
    .k_right]
  | .UndropStatement => [
    .k_ident, .k_what]
  | .UnpivotOperator => [
    .k_config, .k_include_or_exclude_nulls]
  | .UnpivotPipeOperator => [
    .k_config]
  | .UnpivotConfig => [
    .k_expr, .k_for, .k_in, .k_rparen]
  | .UpdateStatement => [
    .k_set, .k_where]
  | .WhenClause => [
    .k_and, .k_by_target_or_source, .k_matched, .k_then]
  | .WhileStatement => [
    .k_condition, .k_do, .k_end_while]
  | .WindowClause => [
    .k_window_exprs]
  | .WindowExpr => [
    .k_as, .k_window]
  | .WindowFrameClause => [
    .k_start]
  | .WindowSpecification => [
    .k_frame, .k_orderby, .k_partitionby, .k_rparen]
  | .WithClause => [
    .k_queries]
  | .WithOffsetClause => [
    .k_offset]
  | .WithPipeOperator => [
    .k_queries]
  | .WithPartitionColumnsClause => [
    .k_column_schema_group, .k_partition_columns]
  | .WithQuery => [
    .k_as, .k_comma, .k_stmt]
  | .XXXByExprs => [
    .k_by, .k_exprs]
  | _ => []

/-- Deviations: children the parser can produce although they are not declared (see DESIGN.md). -/
def undeclared : NodeType → List (Key × Kind)
  | .AccessOperator => [
    (.k_for_system_time_as_of, .node), (.k_match_recognize, .node), (.k_pivot, .node),
    (.k_row_value_alias, .node), (.k_tablesample, .node), (.k_unpivot, .node),
    (.k_with_offset, .node)]
  | .AlterColumnStatement => [
    (.k_colon, .node), (.k_leading_label, .node), (.k_semicolon, .node), (.k_trailing_label, .node)]
  | .AlterBICapacityStatement => [
    (.k_colon, .node), (.k_leading_label, .node), (.k_trailing_label, .node)]
  | .AlterModelStatement => [
    (.k_colon, .node), (.k_leading_label, .node), (.k_trailing_label, .node)]
  | .AlterOrganizationStatement => [
    (.k_colon, .node), (.k_leading_label, .node), (.k_trailing_label, .node)]
  | .AlterProjectStatement => [
    (.k_colon, .node), (.k_leading_label, .node), (.k_trailing_label, .node)]
  | .AlterReservationStatement => [
    (.k_colon, .node), (.k_leading_label, .node), (.k_trailing_label, .node)]
  | .AlterSchemaStatement => [
    (.k_colon, .node), (.k_leading_label, .node), (.k_trailing_label, .node)]
  | .AlterTableStatement => [
    (.k_colon, .node), (.k_leading_label, .node), (.k_trailing_label, .node)]
  | .AlterVectorIndexStatement => [
    (.k_colon, .node), (.k_leading_label, .node), (.k_trailing_label, .node)]
  | .AlterViewStatement => [
    (.k_colon, .node), (.k_leading_label, .node), (.k_trailing_label, .node)]
  | .ArrayLiteral => [
    (.k_row_value_alias, .node)]
  | .AssertStatement => [
    (.k_colon, .node), (.k_leading_label, .node), (.k_trailing_label, .node)]
  | .Asterisk => [
    (.k_null_order, .vec), (.k_order, .node), (.k_row_value_alias, .node)]
  | .BinaryOperator => [
    (.k_for_system_time_as_of, .node), (.k_match_recognize, .node), (.k_pivot, .node),
    (.k_row_value_alias, .node), (.k_tablesample, .node), (.k_unpivot, .node),
    (.k_with_offset, .node)]
  | .BetweenOperator => [
    (.k_for_system_time_as_of, .node), (.k_match_recognize, .node), (.k_pivot, .node),
    (.k_row_value_alias, .node), (.k_tablesample, .node), (.k_unpivot, .node),
    (.k_with_offset, .node)]
  | .BooleanLiteral => [
    (.k_row_value_alias, .node)]
  | .BreakContinueStatement => [
    (.k_colon, .node), (.k_leading_label, .node), (.k_trailing_label, .node)]
  | .CallingFunction => [
    (.k_row_value_alias, .node)]
  | .CallingTableFunction => [
    (.k_distinct, .node), (.k_for_system_time_as_of, .node), (.k_having, .node),
    (.k_ignore_nulls, .vec), (.k_limit, .node), (.k_null_order, .vec), (.k_order, .node),
    (.k_orderby, .node), (.k_over, .node), (.k_tablesample, .node)]
  | .CallingUnnest => [
    (.k_and, .node), (.k_distinct, .node), (.k_for_system_time_as_of, .node), (.k_from, .node),
    (.k_having, .node), (.k_ignore_nulls, .vec), (.k_left, .node), (.k_limit, .node),
    (.k_not, .node), (.k_null_order, .vec), (.k_order, .node), (.k_orderby, .node),
    (.k_over, .node), (.k_quantifier, .node), (.k_right, .node), (.k_right_max, .node),
    (.k_right_min, .node), (.k_tablesample, .node)]
  | .CallStatement => [
    (.k_colon, .node), (.k_leading_label, .node), (.k_trailing_label, .node)]
  | .CaseExpr => [
    (.k_row_value_alias, .node)]
  | .CaseStatement => [
    (.k_colon, .node), (.k_leading_label, .node), (.k_trailing_label, .node)]
  | .CreateFunctionStatement => [
    (.k_colon, .node), (.k_leading_label, .node), (.k_trailing_label, .node)]
  | .CreateIndexStatement => [
    (.k_colon, .node), (.k_leading_label, .node), (.k_trailing_label, .node)]
  | .CreateModelStatement => [
    (.k_colon, .node), (.k_leading_label, .node), (.k_trailing_label, .node)]
  | .CreateProcedureStatement => [
    (.k_colon, .node), (.k_leading_label, .node), (.k_trailing_label, .node)]
  | .CreateReservationStatement => [
    (.k_colon, .node), (.k_leading_label, .node), (.k_trailing_label, .node)]
  | .CreateRowAccessPolicyStatement => [
    (.k_colon, .node), (.k_leading_label, .node), (.k_trailing_label, .node)]
  | .CreateSchemaStatement => [
    (.k_colon, .node), (.k_leading_label, .node), (.k_trailing_label, .node)]
  | .CreateTableStatement => [
    (.k_colon, .node), (.k_leading_label, .node), (.k_trailing_label, .node)]
  | .CreateViewStatement => [
    (.k_colon, .node), (.k_leading_label, .node), (.k_trailing_label, .node)]
  | .DeclareStatement => [
    (.k_colon, .node), (.k_leading_label, .node), (.k_trailing_label, .node)]
  | .DeleteStatement => [
    (.k_colon, .node), (.k_leading_label, .node), (.k_trailing_label, .node)]
  | .DotOperator => [
    (.k_row_value_alias, .node)]
  | .DropStatement => [
    (.k_colon, .node), (.k_leading_label, .node), (.k_trailing_label, .node)]
  | .DropRowAccessPolicyStatement => [
    (.k_colon, .node), (.k_leading_label, .node), (.k_trailing_label, .node)]
  | .ExecuteStatement => [
    (.k_colon, .node), (.k_leading_label, .node), (.k_trailing_label, .node)]
  | .ExportDataStatement => [
    (.k_colon, .node), (.k_leading_label, .node), (.k_trailing_label, .node)]
  | .ExportModelStatement => [
    (.k_colon, .node), (.k_leading_label, .node), (.k_trailing_label, .node)]
  | .FromStatement => [
    (.k_alias, .node), (.k_as, .node), (.k_colon, .node), (.k_comma, .node),
    (.k_leading_label, .node), (.k_null_order, .vec), (.k_order, .node),
    (.k_row_value_alias, .node), (.k_trailing_label, .node)]
  | .FunctionChain => [
    (.k_for_system_time_as_of, .node), (.k_row_value_alias, .node), (.k_tablesample, .node)]
  | .GrantStatement => [
    (.k_colon, .node), (.k_leading_label, .node), (.k_trailing_label, .node)]
  | .GroupedExpr => [
    (.k_for_system_time_as_of, .node), (.k_tablesample, .node)]
  | .GroupedStatement => [
    (.k_colon, .node), (.k_for_system_time_as_of, .node), (.k_leading_label, .node),
    (.k_row_value_alias, .node), (.k_tablesample, .node), (.k_trailing_label, .node)]
  | .Identifier => [
    (.k_row_value_alias, .node)]
  | .IdentWithOptions => [
    (.k_left, .node), (.k_right, .node), (.k_trailing_idents, .vec)]
  | .IfStatement => [
    (.k_colon, .node), (.k_leading_label, .node), (.k_trailing_label, .node)]
  | .InsertStatement => [
    (.k_colon, .node), (.k_leading_label, .node), (.k_trailing_label, .node)]
  | .IntervalLiteral => [
    (.k_null_order, .vec), (.k_order, .node), (.k_row_value_alias, .node)]
  | .InOperator => [
    (.k_for_system_time_as_of, .node), (.k_match_recognize, .node), (.k_pivot, .node),
    (.k_row_value_alias, .node), (.k_tablesample, .node), (.k_unpivot, .node),
    (.k_with_offset, .node)]
  | .IsDistinctFromOperator => [
    (.k_for_system_time_as_of, .node), (.k_match_recognize, .node), (.k_pivot, .node),
    (.k_row_value_alias, .node), (.k_tablesample, .node), (.k_unpivot, .node),
    (.k_with_offset, .node)]
  | .LoadStatement => [
    (.k_colon, .node), (.k_leading_label, .node), (.k_trailing_label, .node)]
  | .MergeStatement => [
    (.k_colon, .node), (.k_leading_label, .node), (.k_trailing_label, .node)]
  | .NumericLiteral => [
    (.k_row_value_alias, .node)]
  | .NullLiteral => [
    (.k_row_value_alias, .node)]
  | .Parameter => [
    (.k_row_value_alias, .node)]
  | .PipeStatement => [
    (.k_alias, .node), (.k_as, .node), (.k_colon, .node), (.k_comma, .node),
    (.k_for_system_time_as_of, .node), (.k_leading_label, .node), (.k_match_recognize, .node),
    (.k_null_order, .vec), (.k_order, .node), (.k_pivot, .node), (.k_row_value_alias, .node),
    (.k_tablesample, .node), (.k_trailing_label, .node), (.k_unpivot, .node), (.k_with, .node),
    (.k_with_offset, .node)]
  | .RaiseStatement => [
    (.k_colon, .node), (.k_leading_label, .node), (.k_trailing_label, .node)]
  | .RangeLiteral => [
    (.k_row_value_alias, .node)]
  | .RevokeStatement => [
    (.k_colon, .node), (.k_leading_label, .node), (.k_trailing_label, .node)]
  | .SelectStatement => [
    (.k_alias, .node), (.k_as, .node), (.k_colon, .node), (.k_comma, .node),
    (.k_leading_label, .node), (.k_null_order, .vec), (.k_order, .node),
    (.k_row_value_alias, .node), (.k_trailing_label, .node)]
  | .SetOperator => [
    (.k_alias, .node), (.k_as, .node), (.k_colon, .node), (.k_comma, .node),
    (.k_leading_label, .node), (.k_limit, .node), (.k_null_order, .vec), (.k_order, .node),
    (.k_orderby, .node), (.k_row_value_alias, .node), (.k_trailing_label, .node)]
  | .SetStatement => [
    (.k_colon, .node), (.k_leading_label, .node), (.k_trailing_label, .node)]
  | .SingleTokenStatement => [
    (.k_colon, .node), (.k_leading_label, .node), (.k_trailing_label, .node)]
  | .StringLiteral => [
    (.k_row_value_alias, .node)]
  | .StructLiteral => [
    (.k_row_value_alias, .node)]
  | .Template => [
    (.k_row_value_alias, .node)]
  | .TransactionStatement => [
    (.k_colon, .node), (.k_leading_label, .node), (.k_trailing_label, .node)]
  | .TruncateStatement => [
    (.k_colon, .node), (.k_leading_label, .node), (.k_trailing_label, .node)]
  | .UnaryOperator => [
    (.k_row_value_alias, .node)]
  | .Unknown => [
    (.k_alias, .node), (.k_as, .node), (.k_comma, .node), (.k_leading_comments, .vec),
    (.k_null_order, .vec), (.k_order, .node), (.k_row_value_alias, .node),
    (.k_trailing_comments, .vec)]
  | .UndropStatement => [
    (.k_colon, .node), (.k_leading_label, .node), (.k_trailing_label, .node)]
  | .UpdateStatement => [
    (.k_colon, .node), (.k_leading_label, .node), (.k_trailing_label, .node)]
  | _ => []

/-- Deviations: children declared without `?` that the parser can leave out (see DESIGN.md). -/
def omissible : NodeType → List Key
  | .AlterColumnStatement => [
    .k_set]
  | .AssertStatement => [
    .k_as, .k_description]
  | .CallingTableFunction => [
    .k_with_offset]
  | .CallingUnnest => [
    .k_func, .k_rparen, .k_with_offset]
  | .CreateSchemaStatement => [
    .k_default_collate]
  | .CreateTableStatement => [
    .k_like_or_copy, .k_source_table]
  | .CreateViewStatement => [
    .k_as]
  | .DeleteStatement => [
    .k_from]
  | .DotOperator => [
    .k_with_offset]
  | .ExecuteStatement => [
    .k_into]
  | .ExtractArgument => [
    .k_at_time_zone, .k_time_zone]
  | .FromStatement => [
    .k_with]
  | .FunctionChain => [
    .k_with_offset]
  | .GroupedExpr => [
    .k_with_offset]
  | .GroupedStatement => [
    .k_limit, .k_orderby, .k_with_offset]
  | .GroupedTypeDeclarationOrConstraints => [
    .k_declarations]
  | .KeywordSequence => [
    .k_next_keyword]
  | .Identifier => [
    .k_with_offset]
  | .IfStatement => [
    .k_else, .k_elseifs]
  | .JoinOperator => [
    .k_join_type, .k_on, .k_outer, .k_using, .k_with_offset]
  | .MatchRecognizeConfig => [
    .k_pattern]
  | .MultiTokenIdentifier => [
    .k_with_offset]
  | .Parameter => [
    .k_with_offset]
  | .Template => [
    .k_with_offset]
  | .TypeDeclaration => [
    .k_in_out]
  | .UnpivotOperator => [
    .k_include_or_exclude_nulls]
  | .UpdateStatement => [
    .k_where]
  | .WhenClause => [
    .k_and, .k_by_target_or_source]
  | .WindowFrameClause => [
    .k_start]
  | .WindowSpecification => [
    .k_frame, .k_orderby, .k_partitionby]
  | .WithPartitionColumnsClause => [
    .k_column_schema_group]
  | .WithQuery => [
    .k_comma]
  | _ => []

/-- The `node_type`s declared for a child, where the declaration is a union of concrete node types. -/
def childTypes : NodeType → List (Key × List NodeType)
  | .AccessOperator => [
    (.k_alias, [.Identifier]), (.k_as, [.Keyword]), (.k_leading_comments, [.Comment]),
    (.k_trailing_comments, [.Comment])]
  | .AddColumnClause => [
    (.k_leading_comments, [.Comment]), (.k_trailing_comments, [.Comment])]
  | .AddConstraintClause => [
    (.k_leading_comments, [.Comment]), (.k_trailing_comments, [.Comment])]
  | .AggregatePipeOperator => [
    (.k_leading_comments, [.Comment]), (.k_trailing_comments, [.Comment])]
  | .AlterColumnStatement => [
    (.k_leading_comments, [.Comment]), (.k_trailing_comments, [.Comment])]
  | .AlterBICapacityStatement => [
    (.k_leading_comments, [.Comment]), (.k_semicolon, [.Symbol]),
    (.k_trailing_comments, [.Comment])]
  | .AlterModelStatement => [
    (.k_leading_comments, [.Comment]), (.k_semicolon, [.Symbol]),
    (.k_trailing_comments, [.Comment])]
  | .AlterOrganizationStatement => [
    (.k_leading_comments, [.Comment]), (.k_semicolon, [.Symbol]),
    (.k_trailing_comments, [.Comment])]
  | .AlterTableDropClause => [
    (.k_leading_comments, [.Comment]), (.k_trailing_comments, [.Comment])]
  | .AlterProjectStatement => [
    (.k_leading_comments, [.Comment]), (.k_semicolon, [.Symbol]),
    (.k_trailing_comments, [.Comment])]
  | .AlterReservationStatement => [
    (.k_leading_comments, [.Comment]), (.k_semicolon, [.Symbol]),
    (.k_trailing_comments, [.Comment])]
  | .AlterSchemaStatement => [
    (.k_leading_comments, [.Comment]), (.k_semicolon, [.Symbol]),
    (.k_trailing_comments, [.Comment])]
  | .AlterTableStatement => [
    (.k_leading_comments, [.Comment]), (.k_semicolon, [.Symbol]),
    (.k_trailing_comments, [.Comment])]
  | .AlterVectorIndexStatement => [
    (.k_leading_comments, [.Comment]), (.k_semicolon, [.Symbol]),
    (.k_trailing_comments, [.Comment])]
  | .AlterViewStatement => [
    (.k_leading_comments, [.Comment]), (.k_semicolon, [.Symbol]),
    (.k_trailing_comments, [.Comment])]
  | .ArrayLiteral => [
    (.k_alias, [.Identifier]), (.k_as, [.Keyword]), (.k_leading_comments, [.Comment]),
    (.k_trailing_comments, [.Comment])]
  | .AssertStatement => [
    (.k_leading_comments, [.Comment]), (.k_semicolon, [.Symbol]),
    (.k_trailing_comments, [.Comment])]
  | .Asterisk => [
    (.k_alias, [.Identifier]), (.k_as, [.Keyword]), (.k_leading_comments, [.Comment]),
    (.k_trailing_comments, [.Comment])]
  | .BasePipeOperator => [
    (.k_leading_comments, [.Comment]), (.k_trailing_comments, [.Comment])]
  | .BinaryOperator => [
    (.k_alias, [.Identifier]), (.k_as, [.Keyword]), (.k_leading_comments, [.Comment]),
    (.k_trailing_comments, [.Comment])]
  | .BeginStatement => [
    (.k_leading_comments, [.Comment]), (.k_semicolon, [.Symbol]),
    (.k_trailing_comments, [.Comment])]
  | .BetweenOperator => [
    (.k_alias, [.Identifier]), (.k_as, [.Keyword]), (.k_leading_comments, [.Comment]),
    (.k_trailing_comments, [.Comment])]
  | .BooleanLiteral => [
    (.k_alias, [.Identifier]), (.k_as, [.Keyword]), (.k_leading_comments, [.Comment]),
    (.k_trailing_comments, [.Comment])]
  | .BreakContinueStatement => [
    (.k_leading_comments, [.Comment]), (.k_semicolon, [.Symbol]),
    (.k_trailing_comments, [.Comment])]
  | .CallingFunction => [
    (.k_alias, [.Identifier]), (.k_as, [.Keyword]), (.k_leading_comments, [.Comment]),
    (.k_trailing_comments, [.Comment])]
  | .CallingTableFunction => [
    (.k_alias, [.Identifier]), (.k_as, [.Keyword]), (.k_leading_comments, [.Comment]),
    (.k_trailing_comments, [.Comment])]
  | .CallingUnnest => [
    (.k_alias, [.Identifier]), (.k_as, [.Keyword]), (.k_leading_comments, [.Comment]),
    (.k_trailing_comments, [.Comment])]
  | .CallStatement => [
    (.k_leading_comments, [.Comment]), (.k_semicolon, [.Symbol]),
    (.k_trailing_comments, [.Comment])]
  | .Constraint => [
    (.k_leading_comments, [.Comment]), (.k_trailing_comments, [.Comment])]
  | .CaseExpr => [
    (.k_alias, [.Identifier]), (.k_as, [.Keyword]), (.k_leading_comments, [.Comment]),
    (.k_trailing_comments, [.Comment])]
  | .CaseExprArm => [
    (.k_leading_comments, [.Comment]), (.k_trailing_comments, [.Comment])]
  | .CaseStatement => [
    (.k_leading_comments, [.Comment]), (.k_semicolon, [.Symbol]),
    (.k_trailing_comments, [.Comment])]
  | .CaseStatementArm => [
    (.k_leading_comments, [.Comment]), (.k_trailing_comments, [.Comment])]
  | .CastArgument => [
    (.k_leading_comments, [.Comment]), (.k_trailing_comments, [.Comment])]
  | .CreateFunctionStatement => [
    (.k_leading_comments, [.Comment]), (.k_semicolon, [.Symbol]),
    (.k_trailing_comments, [.Comment])]
  | .CreateIndexStatement => [
    (.k_leading_comments, [.Comment]), (.k_semicolon, [.Symbol]),
    (.k_trailing_comments, [.Comment])]
  | .CreateModelStatement => [
    (.k_leading_comments, [.Comment]), (.k_semicolon, [.Symbol]),
    (.k_trailing_comments, [.Comment])]
  | .CreateProcedureStatement => [
    (.k_leading_comments, [.Comment]), (.k_semicolon, [.Symbol]),
    (.k_trailing_comments, [.Comment])]
  | .CreateReservationStatement => [
    (.k_leading_comments, [.Comment]), (.k_semicolon, [.Symbol]),
    (.k_trailing_comments, [.Comment])]
  | .CreateRowAccessPolicyStatement => [
    (.k_leading_comments, [.Comment]), (.k_semicolon, [.Symbol]),
    (.k_trailing_comments, [.Comment])]
  | .CreateSchemaStatement => [
    (.k_leading_comments, [.Comment]), (.k_semicolon, [.Symbol]),
    (.k_trailing_comments, [.Comment])]
  | .CreateTableStatement => [
    (.k_leading_comments, [.Comment]), (.k_semicolon, [.Symbol]),
    (.k_trailing_comments, [.Comment])]
  | .CreateViewStatement => [
    (.k_leading_comments, [.Comment]), (.k_semicolon, [.Symbol]),
    (.k_trailing_comments, [.Comment])]
  | .DeclareStatement => [
    (.k_leading_comments, [.Comment]), (.k_semicolon, [.Symbol]),
    (.k_trailing_comments, [.Comment])]
  | .DeleteStatement => [
    (.k_leading_comments, [.Comment]), (.k_semicolon, [.Symbol]),
    (.k_trailing_comments, [.Comment])]
  | .DifferentialPrivacyClause => [
    (.k_leading_comments, [.Comment]), (.k_trailing_comments, [.Comment])]
  | .DotOperator => [
    (.k_alias, [.Identifier]), (.k_as, [.Keyword]), (.k_leading_comments, [.Comment]),
    (.k_trailing_comments, [.Comment])]
  | .DropStatement => [
    (.k_leading_comments, [.Comment]), (.k_semicolon, [.Symbol]),
    (.k_trailing_comments, [.Comment])]
  | .DropRowAccessPolicyStatement => [
    (.k_leading_comments, [.Comment]), (.k_semicolon, [.Symbol]),
    (.k_trailing_comments, [.Comment])]
  | .ElseIfClause => [
    (.k_leading_comments, [.Comment]), (.k_trailing_comments, [.Comment])]
  | .EOF => [
    (.k_leading_comments, [.Comment])]
  | .EmptyStruct => [
    (.k_alias, [.Identifier]), (.k_as, [.Keyword]), (.k_leading_comments, [.Comment]),
    (.k_trailing_comments, [.Comment])]
  | .ExecuteStatement => [
    (.k_leading_comments, [.Comment]), (.k_semicolon, [.Symbol]),
    (.k_trailing_comments, [.Comment])]
  | .ExportDataStatement => [
    (.k_leading_comments, [.Comment]), (.k_semicolon, [.Symbol]),
    (.k_trailing_comments, [.Comment])]
  | .ExportModelStatement => [
    (.k_leading_comments, [.Comment]), (.k_semicolon, [.Symbol]),
    (.k_trailing_comments, [.Comment])]
  | .ExtractArgument => [
    (.k_leading_comments, [.Comment]), (.k_trailing_comments, [.Comment])]
  | .ForSystemTimeAsOfClause => [
    (.k_leading_comments, [.Comment]), (.k_trailing_comments, [.Comment])]
  | .ForStatement => [
    (.k_leading_comments, [.Comment]), (.k_semicolon, [.Symbol]),
    (.k_trailing_comments, [.Comment])]
  | .FromStatement => [
    (.k_leading_comments, [.Comment]), (.k_semicolon, [.Symbol]),
    (.k_trailing_comments, [.Comment])]
  | .FunctionChain => [
    (.k_alias, [.Identifier]), (.k_as, [.Keyword]), (.k_leading_comments, [.Comment]),
    (.k_trailing_comments, [.Comment])]
  | .GrantStatement => [
    (.k_leading_comments, [.Comment]), (.k_semicolon, [.Symbol]),
    (.k_trailing_comments, [.Comment])]
  | .GroupByExprs => [
    (.k_leading_comments, [.Comment]), (.k_trailing_comments, [.Comment])]
  | .GroupedIdentWithOptions => [
    (.k_leading_comments, [.Comment]), (.k_trailing_comments, [.Comment])]
  | .GroupedExpr => [
    (.k_alias, [.Identifier]), (.k_as, [.Keyword]), (.k_leading_comments, [.Comment]),
    (.k_trailing_comments, [.Comment])]
  | .GroupedExprs => [
    (.k_leading_comments, [.Comment]), (.k_trailing_comments, [.Comment])]
  | .GroupedPattern => [
    (.k_leading_comments, [.Comment]), (.k_trailing_comments, [.Comment])]
  | .GroupedStatement => [
    (.k_alias, [.Identifier]), (.k_as, [.Keyword]), (.k_leading_comments, [.Comment]),
    (.k_semicolon, [.Symbol]), (.k_trailing_comments, [.Comment]), (.k_with, [.WithClause])]
  | .GroupedType => [
    (.k_leading_comments, [.Comment]), (.k_trailing_comments, [.Comment])]
  | .GroupedTypeDeclarationOrConstraints => [
    (.k_leading_comments, [.Comment]), (.k_trailing_comments, [.Comment])]
  | .Keyword => [
    (.k_leading_comments, [.Comment]), (.k_trailing_comments, [.Comment])]
  | .KeywordSequence => [
    (.k_leading_comments, [.Comment]),
    (.k_next_keyword, [.Keyword, .KeywordSequence, .KeywordWithExpr, .KeywordWithGroupedXXX]),
    (.k_trailing_comments, [.Comment])]
  | .KeywordWithExpr => [
    (.k_leading_comments, [.Comment]), (.k_trailing_comments, [.Comment])]
  | .KeywordWithExprs => [
    (.k_leading_comments, [.Comment]), (.k_trailing_comments, [.Comment])]
  | .KeywordWithType => [
    (.k_leading_comments, [.Comment]), (.k_trailing_comments, [.Comment])]
  | .KeywordWithGroupedXXX => [
    (.k_leading_comments, [.Comment]), (.k_trailing_comments, [.Comment])]
  | .KeywordWithStatement => [
    (.k_leading_comments, [.Comment]), (.k_trailing_comments, [.Comment])]
  | .KeywordWithStatements => [
    (.k_leading_comments, [.Comment]), (.k_trailing_comments, [.Comment])]
  | .Identifier => [
    (.k_alias, [.Identifier]), (.k_as, [.Keyword]), (.k_leading_comments, [.Comment]),
    (.k_trailing_comments, [.Comment])]
  | .IdentWithOptions => [
    (.k_leading_comments, [.Comment]), (.k_trailing_comments, [.Comment])]
  | .IfStatement => [
    (.k_leading_comments, [.Comment]), (.k_semicolon, [.Symbol]),
    (.k_trailing_comments, [.Comment])]
  | .InsertStatement => [
    (.k_leading_comments, [.Comment]), (.k_semicolon, [.Symbol]),
    (.k_trailing_comments, [.Comment])]
  | .IntervalLiteral => [
    (.k_alias, [.Identifier]), (.k_as, [.Keyword]), (.k_leading_comments, [.Comment]),
    (.k_trailing_comments, [.Comment])]
  | .InOperator => [
    (.k_alias, [.Identifier]), (.k_as, [.Keyword]), (.k_leading_comments, [.Comment]),
    (.k_trailing_comments, [.Comment])]
  | .IsDistinctFromOperator => [
    (.k_alias, [.Identifier]), (.k_as, [.Keyword]), (.k_leading_comments, [.Comment]),
    (.k_trailing_comments, [.Comment])]
  | .JoinOperator => [
    (.k_alias, [.Identifier]), (.k_as, [.Keyword]), (.k_leading_comments, [.Comment]),
    (.k_trailing_comments, [.Comment])]
  | .JoinPipeOperator => [
    (.k_leading_comments, [.Comment]), (.k_trailing_comments, [.Comment])]
  | .LimitClause => [
    (.k_leading_comments, [.Comment]), (.k_trailing_comments, [.Comment])]
  | .LimitPipeOperator => [
    (.k_leading_comments, [.Comment]), (.k_trailing_comments, [.Comment])]
  | .LoadStatement => [
    (.k_leading_comments, [.Comment]), (.k_semicolon, [.Symbol]),
    (.k_trailing_comments, [.Comment])]
  | .LoopStatement => [
    (.k_leading_comments, [.Comment]), (.k_semicolon, [.Symbol]),
    (.k_trailing_comments, [.Comment])]
  | .MatchRecognizeClause => [
    (.k_leading_comments, [.Comment]), (.k_trailing_comments, [.Comment])]
  | .MatchRecognizeConfig => [
    (.k_leading_comments, [.Comment]), (.k_trailing_comments, [.Comment])]
  | .MatchRecognizePipeOperator => [
    (.k_leading_comments, [.Comment]), (.k_trailing_comments, [.Comment])]
  | .MergeStatement => [
    (.k_leading_comments, [.Comment]), (.k_semicolon, [.Symbol]),
    (.k_trailing_comments, [.Comment])]
  | .MultiTokenIdentifier => [
    (.k_alias, [.Identifier]), (.k_as, [.Keyword]), (.k_leading_comments, [.Comment]),
    (.k_trailing_comments, [.Comment])]
  | .NumericLiteral => [
    (.k_alias, [.Identifier]), (.k_as, [.Keyword]), (.k_leading_comments, [.Comment]),
    (.k_trailing_comments, [.Comment])]
  | .NullLiteral => [
    (.k_alias, [.Identifier]), (.k_as, [.Keyword]), (.k_leading_comments, [.Comment]),
    (.k_trailing_comments, [.Comment])]
  | .OrPattern => [
    (.k_leading_comments, [.Comment]), (.k_trailing_comments, [.Comment])]
  | .OverClause => [
    (.k_leading_comments, [.Comment]), (.k_trailing_comments, [.Comment])]
  | .OverwritePartitionsClause => [
    (.k_leading_comments, [.Comment]), (.k_trailing_comments, [.Comment])]
  | .Parameter => [
    (.k_alias, [.Identifier]), (.k_as, [.Keyword]), (.k_leading_comments, [.Comment]),
    (.k_trailing_comments, [.Comment])]
  | .Pattern => [
    (.k_leading_comments, [.Comment]), (.k_trailing_comments, [.Comment])]
  | .PatternClause => [
    (.k_leading_comments, [.Comment]), (.k_trailing_comments, [.Comment])]
  | .PatternQuantifier => [
    (.k_leading_comments, [.Comment]), (.k_trailing_comments, [.Comment])]
  | .PipeStatement => [
    (.k_leading_comments, [.Comment]), (.k_semicolon, [.Symbol]),
    (.k_trailing_comments, [.Comment])]
  | .PivotConfig => [
    (.k_leading_comments, [.Comment]), (.k_trailing_comments, [.Comment])]
  | .PivotOperator => [
    (.k_leading_comments, [.Comment]), (.k_trailing_comments, [.Comment])]
  | .PivotPipeOperator => [
    (.k_leading_comments, [.Comment]), (.k_trailing_comments, [.Comment])]
  | .RaiseStatement => [
    (.k_leading_comments, [.Comment]), (.k_semicolon, [.Symbol]),
    (.k_trailing_comments, [.Comment])]
  | .RangeLiteral => [
    (.k_alias, [.Identifier]), (.k_as, [.Keyword]), (.k_leading_comments, [.Comment]),
    (.k_trailing_comments, [.Comment])]
  | .RenameColumnClause => [
    (.k_leading_comments, [.Comment]), (.k_trailing_comments, [.Comment])]
  | .RepeatStatement => [
    (.k_leading_comments, [.Comment]), (.k_semicolon, [.Symbol]),
    (.k_trailing_comments, [.Comment])]
  | .RevokeStatement => [
    (.k_leading_comments, [.Comment]), (.k_semicolon, [.Symbol]),
    (.k_trailing_comments, [.Comment])]
  | .SelectPipeOperator => [
    (.k_leading_comments, [.Comment]), (.k_trailing_comments, [.Comment])]
  | .SelectStatement => [
    (.k_leading_comments, [.Comment]), (.k_semicolon, [.Symbol]),
    (.k_trailing_comments, [.Comment]), (.k_with, [.WithClause])]
  | .SetOperator => [
    (.k_leading_comments, [.Comment]),
    (.k_left, [.GroupedStatement, .SelectStatement, .SetOperator]),
    (.k_right, [.GroupedStatement, .SelectStatement, .SetOperator]), (.k_semicolon, [.Symbol]),
    (.k_trailing_comments, [.Comment]), (.k_with, [.WithClause])]
  | .SetStatement => [
    (.k_leading_comments, [.Comment]), (.k_semicolon, [.Symbol]),
    (.k_trailing_comments, [.Comment])]
  | .SingleTokenStatement => [
    (.k_leading_comments, [.Comment]), (.k_semicolon, [.Symbol]),
    (.k_trailing_comments, [.Comment])]
  | .StringLiteral => [
    (.k_alias, [.Identifier]), (.k_as, [.Keyword]), (.k_leading_comments, [.Comment]),
    (.k_trailing_comments, [.Comment])]
  | .StructLiteral => [
    (.k_alias, [.Identifier]), (.k_as, [.Keyword]), (.k_leading_comments, [.Comment]),
    (.k_trailing_comments, [.Comment])]
  | .Symbol => [
    (.k_leading_comments, [.Comment]), (.k_trailing_comments, [.Comment])]
  | .TableSampleClause => [
    (.k_leading_comments, [.Comment]), (.k_trailing_comments, [.Comment])]
  | .TableSamplePipeOperator => [
    (.k_leading_comments, [.Comment]), (.k_trailing_comments, [.Comment])]
  | .TableSampleRatio => [
    (.k_leading_comments, [.Comment]), (.k_trailing_comments, [.Comment])]
  | .Template => [
    (.k_alias, [.Identifier]), (.k_as, [.Keyword]), (.k_leading_comments, [.Comment]),
    (.k_trailing_comments, [.Comment])]
  | .TrainingDataCustomHolidayClause => [
    (.k_leading_comments, [.Comment]), (.k_trailing_comments, [.Comment])]
  | .TransactionStatement => [
    (.k_leading_comments, [.Comment]), (.k_semicolon, [.Symbol]),
    (.k_trailing_comments, [.Comment])]
  | .TruncateStatement => [
    (.k_leading_comments, [.Comment]), (.k_semicolon, [.Symbol]),
    (.k_trailing_comments, [.Comment])]
  | .Type => [
    (.k_leading_comments, [.Comment]), (.k_trailing_comments, [.Comment])]
  | .TypeDeclaration => [
    (.k_leading_comments, [.Comment]), (.k_trailing_comments, [.Comment])]
  | .UnaryOperator => [
    (.k_alias, [.Identifier]), (.k_as, [.Keyword]), (.k_leading_comments, [.Comment]),
    (.k_trailing_comments, [.Comment])]
  | .UndropStatement => [
    (.k_leading_comments, [.Comment]), (.k_semicolon, [.Symbol]),
    (.k_trailing_comments, [.Comment])]
  | .UnionPipeOperator => [
    (.k_leading_comments, [.Comment]), (.k_trailing_comments, [.Comment])]
  | .UnpivotOperator => [
    (.k_leading_comments, [.Comment]), (.k_trailing_comments, [.Comment])]
  | .UnpivotPipeOperator => [
    (.k_leading_comments, [.Comment]), (.k_trailing_comments, [.Comment])]
  | .UnpivotConfig => [
    (.k_leading_comments, [.Comment]), (.k_trailing_comments, [.Comment])]
  | .UpdateStatement => [
    (.k_leading_comments, [.Comment]), (.k_semicolon, [.Symbol]),
    (.k_trailing_comments, [.Comment])]
  | .WhenClause => [
    (.k_leading_comments, [.Comment]), (.k_trailing_comments, [.Comment])]
  | .WhileStatement => [
    (.k_leading_comments, [.Comment]), (.k_semicolon, [.Symbol]),
    (.k_trailing_comments, [.Comment])]
  | .WindowClause => [
    (.k_leading_comments, [.Comment]), (.k_trailing_comments, [.Comment])]
  | .WindowExpr => [
    (.k_leading_comments, [.Comment]), (.k_trailing_comments, [.Comment])]
  | .WindowFrameClause => [
    (.k_leading_comments, [.Comment]), (.k_trailing_comments, [.Comment])]
  | .WindowSpecification => [
    (.k_leading_comments, [.Comment]), (.k_trailing_comments, [.Comment])]
  | .WithClause => [
    (.k_leading_comments, [.Comment]), (.k_queries, [.WithQuery]),
    (.k_trailing_comments, [.Comment])]
  | .WithOffsetClause => [
    (.k_as, [.Keyword]), (.k_leading_comments, [.Comment]), (.k_offset, [.Keyword]),
    (.k_trailing_comments, [.Comment])]
  | .WithPipeOperator => [
    (.k_leading_comments, [.Comment]), (.k_queries, [.WithQuery]),
    (.k_trailing_comments, [.Comment])]
  | .WithPartitionColumnsClause => [
    (.k_leading_comments, [.Comment]), (.k_trailing_comments, [.Comment])]
  | .WithQuery => [
    (.k_as, [.Keyword]), (.k_leading_comments, [.Comment]), (.k_stmt, [.GroupedStatement]),
    (.k_trailing_comments, [.Comment])]
  | .XXXByExprs => [
    (.k_leading_comments, [.Comment]), (.k_trailing_comments, [.Comment])]
  | _ => []

/-- Deviations: children that can have another `node_type` than declared (see DESIGN.md). -/
def otherTypes : NodeType → List Key
  | .AccessOperator => [
    .k_alias]
  | .ArrayLiteral => [
    .k_alias]
  | .Asterisk => [
    .k_alias]
  | .BinaryOperator => [
    .k_alias]
  | .BetweenOperator => [
    .k_alias]
  | .BooleanLiteral => [
    .k_alias]
  | .CallingFunction => [
    .k_alias]
  | .CaseExpr => [
    .k_alias]
  | .DotOperator => [
    .k_alias]
  | .EmptyStruct => [
    .k_alias]
  | .FunctionChain => [
    .k_alias]
  | .GroupedExpr => [
    .k_alias]
  | .GroupedStatement => [
    .k_alias]
  | .Identifier => [
    .k_alias]
  | .IntervalLiteral => [
    .k_alias]
  | .InOperator => [
    .k_alias]
  | .IsDistinctFromOperator => [
    .k_alias]
  | .NumericLiteral => [
    .k_alias]
  | .NullLiteral => [
    .k_alias]
  | .Parameter => [
    .k_alias]
  | .RangeLiteral => [
    .k_alias]
  | .SetOperator => [
    .k_right]
  | .StringLiteral => [
    .k_alias]
  | .StructLiteral => [
    .k_alias]
  | .Template => [
    .k_alias]
  | .UnaryOperator => [
    .k_alias]
  | _ => []

/-- Node types whose token is one of a few keywords or symbols (compared without regard to case), as
their names suggest.  `none`: no claim. -/
def tokenOf : NodeType → Option (List Kw)
  | .AccessOperator => some [
    .sym_lbrack]
  | .AddColumnClause => some [
    .ADD]
  | .AddConstraintClause => some [
    .ADD]
  | .AggregatePipeOperator => some [
    .AGGREGATE]
  | .AlterColumnStatement => some [
    .ALTER]
  | .AlterBICapacityStatement => some [
    .ALTER]
  | .AlterModelStatement => some [
    .ALTER]
  | .AlterOrganizationStatement => some [
    .ALTER]
  | .AlterTableDropClause => some [
    .DROP]
  | .AlterProjectStatement => some [
    .ALTER]
  | .AlterReservationStatement => some [
    .ALTER]
  | .AlterSchemaStatement => some [
    .ALTER]
  | .AlterTableStatement => some [
    .ALTER]
  | .AlterVectorIndexStatement => some [
    .ALTER]
  | .AlterViewStatement => some [
    .ALTER]
  | .AssertStatement => some [
    .ASSERT]
  | .Asterisk => some [
    .sym_star]
  | .BasePipeOperator => some [
    .AS, .CALL, .DROP, .EXTEND, .ORDER, .RENAME, .SET, .WHERE]
  | .BinaryOperator => some [
    .sym_ne, .sym_amp, .sym_star, .sym_plus, .sym_minus, .sym_slash, .sym_lt, .sym_shl, .sym_le,
    .sym_ltgt, .sym_eq, .sym_arrow, .sym_gt, .sym_ge, .sym_shr, .AND, .IS, .LIKE, .OR, .sym_caret,
    .sym_bar, .sym_concat]
  | .BeginStatement => some [
    .BEGIN]
  | .BetweenOperator => some [
    .BETWEEN]
  | .BreakContinueStatement => some [
    .BREAK, .CONTINUE, .ITERATE, .LEAVE]
  | .CallingFunction => some [
    .sym_lparen]
  | .CallingTableFunction => some [
    .sym_lparen]
  | .CallStatement => some [
    .CALL]
  | .CaseExpr => some [
    .CASE]
  | .CaseExprArm => some [
    .ELSE, .WHEN]
  | .CaseStatement => some [
    .CASE]
  | .CaseStatementArm => some [
    .ELSE, .WHEN]
  | .CreateFunctionStatement => some [
    .CREATE]
  | .CreateIndexStatement => some [
    .CREATE]
  | .CreateModelStatement => some [
    .CREATE]
  | .CreateProcedureStatement => some [
    .CREATE]
  | .CreateReservationStatement => some [
    .CREATE]
  | .CreateRowAccessPolicyStatement => some [
    .CREATE]
  | .CreateSchemaStatement => some [
    .CREATE]
  | .CreateTableStatement => some [
    .CREATE]
  | .CreateViewStatement => some [
    .CREATE]
  | .DeclareStatement => some [
    .DECLARE]
  | .DeleteStatement => some [
    .DELETE]
  | .DifferentialPrivacyClause => some [
    .WITH]
  | .DotOperator => some [
    .sym_dot]
  | .DropStatement => some [
    .DROP]
  | .DropRowAccessPolicyStatement => some [
    .DROP]
  | .ElseIfClause => some [
    .ELSEIF]
  | .EmptyStruct => some [
    .sym_lparen]
  | .ExecuteStatement => some [
    .EXECUTE]
  | .ExportDataStatement => some [
    .EXPORT]
  | .ExportModelStatement => some [
    .EXPORT]
  | .ForSystemTimeAsOfClause => some [
    .FOR]
  | .ForStatement => some [
    .FOR]
  | .FromStatement => some [
    .FROM]
  | .FunctionChain => some [
    .sym_dot]
  | .GrantStatement => some [
    .GRANT]
  | .GroupByExprs => some [
    .GROUP]
  | .GroupedIdentWithOptions => some [
    .sym_lparen]
  | .GroupedPattern => some [
    .sym_lparen]
  | .GroupedType => some [
    .sym_lt]
  | .KeywordWithType => some [
    .RETURNS]
  | .IfStatement => some [
    .IF]
  | .InsertStatement => some [
    .INSERT]
  | .IntervalLiteral => some [
    .INTERVAL]
  | .InOperator => some [
    .IN]
  | .IsDistinctFromOperator => some [
    .IS]
  | .LimitClause => some [
    .LIMIT]
  | .LimitPipeOperator => some [
    .LIMIT]
  | .LoadStatement => some [
    .LOAD]
  | .MatchRecognizeClause => some [
    .MATCH_RECOGNIZE]
  | .MatchRecognizePipeOperator => some [
    .MATCH_RECOGNIZE]
  | .MergeStatement => some [
    .MERGE]
  | .OrPattern => some [
    .sym_bar]
  | .OverClause => some [
    .OVER]
  | .PatternClause => some [
    .PATTERN]
  | .PatternQuantifier => some [
    .sym_lbrace]
  | .PipeStatement => some [
    .sym_pipe]
  | .PivotOperator => some [
    .PIVOT]
  | .PivotPipeOperator => some [
    .PIVOT]
  | .RaiseStatement => some [
    .RAISE]
  | .RenameColumnClause => some [
    .RENAME]
  | .RevokeStatement => some [
    .REVOKE]
  | .SelectPipeOperator => some [
    .SELECT]
  | .SetStatement => some [
    .SET]
  | .SingleTokenStatement => some [
    .DELETE, .RETURN]
  | .TableSampleClause => some [
    .TABLESAMPLE]
  | .TableSamplePipeOperator => some [
    .TABLESAMPLE]
  | .TransactionStatement => some [
    .BEGIN, .COMMIT, .ROLLBACK]
  | .TruncateStatement => some [
    .TRUNCATE]
  | .UnaryOperator => some [
    .sym_plus, .sym_minus, .B, .BIGDECIMAL, .BIGNUMERIC, .BR, .DATE, .DATETIME, .DECIMAL, .JSON,
    .MODEL, .NOT, .NUMERIC, .R, .RB, .TABLE, .TIME, .TIMESTAMP, .sym_tilde]
  | .UndropStatement => some [
    .UNDROP]
  | .UnpivotOperator => some [
    .UNPIVOT]
  | .UnpivotPipeOperator => some [
    .UNPIVOT]
  | .UpdateStatement => some [
    .UPDATE]
  | .WhenClause => some [
    .WHEN]
  | .WhileStatement => some [
    .WHILE]
  | .WindowClause => some [
    .WINDOW]
  | .WindowFrameClause => some [
    .RANGE, .ROWS]
  | .WindowSpecification => some [
    .sym_lparen]
  | .WithClause => some [
    .WITH]
  | .WithOffsetClause => some [
    .WITH]
  | .WithPipeOperator => some [
    .WITH]
  | .WithPartitionColumnsClause => some [
    .WITH]
  | .XXXByExprs => some [
    .CLUSTER, .ORDER, .PARTITION]
  | _ => none

end Verif.Spec
