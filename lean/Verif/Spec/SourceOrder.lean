import Verif.Spec.Tree
/-! Generated by tools/order.py: the order in which the parts of a node stand in the source.  These lists
are part of the specification. -/
namespace Verif.Spec

/-- A part of a node: its own token, or what is stored under a key. -/
inductive Slot
  | token
  | child (k : Key)
  deriving DecidableEq, Repr

/-- For each node type its parts in the order of the source. -/
def sourceOrder : NodeType → List Slot
  | .AccessOperator => [.child .k_left, .child .k_leading_comments, .token, .child .k_trailing_comments,
      .child .k_right, .child .k_rparen, .child .k_as, .child .k_alias, .child .k_order,
      .child .k_null_order, .child .k_for_system_time_as_of, .child .k_row_value_alias, .child .k_comma,
      .child .k_with_offset, .child .k_match_recognize, .child .k_pivot, .child .k_unpivot,
      .child .k_tablesample]
  | .AddColumnClause => [.child .k_leading_comments, .token, .child .k_trailing_comments, .child .k_what,
      .child .k_if_not_exists, .child .k_type_declaration, .child .k_comma]
  | .AddConstraintClause => [.child .k_leading_comments, .token, .child .k_trailing_comments, .child .k_what,
      .child .k_comma]
  | .AggregatePipeOperator => [.child .k_leading_comments, .token, .child .k_trailing_comments,
      .child .k_exprs, .child .k_groupby, .child .k_keywords]
  | .AlterColumnStatement => [.child .k_leading_label, .child .k_colon, .child .k_leading_comments, .token,
      .child .k_trailing_comments, .child .k_what, .child .k_if_exists, .child .k_ident,
      .child .k_drop_default, .child .k_drop_not_null, .child .k_set, .child .k_data_type, .child .k_default,
      .child .k_options, .child .k_type, .child .k_trailing_label, .child .k_semicolon]
  | .AlterBICapacityStatement => [.child .k_leading_label, .child .k_colon, .child .k_leading_comments,
      .token, .child .k_trailing_comments, .child .k_what, .child .k_ident, .child .k_set, .child .k_options,
      .child .k_trailing_label, .child .k_semicolon]
  | .AlterModelStatement => [.child .k_leading_label, .child .k_colon, .child .k_leading_comments, .token,
      .child .k_trailing_comments, .child .k_what, .child .k_if_exists, .child .k_ident, .child .k_set,
      .child .k_options, .child .k_trailing_label, .child .k_semicolon]
  | .AlterOrganizationStatement => [.child .k_leading_label, .child .k_colon, .child .k_leading_comments,
      .token, .child .k_trailing_comments, .child .k_what, .child .k_set, .child .k_options,
      .child .k_trailing_label, .child .k_semicolon]
  | .AlterTableDropClause => [.child .k_leading_comments, .token, .child .k_trailing_comments,
      .child .k_what, .child .k_if_exists, .child .k_ident, .child .k_comma]
  | .AlterProjectStatement => [.child .k_leading_label, .child .k_colon, .child .k_leading_comments, .token,
      .child .k_trailing_comments, .child .k_what, .child .k_ident, .child .k_set, .child .k_options,
      .child .k_trailing_label, .child .k_semicolon]
  | .AlterReservationStatement => [.child .k_leading_label, .child .k_colon, .child .k_leading_comments,
      .token, .child .k_trailing_comments, .child .k_what, .child .k_ident, .child .k_set, .child .k_options,
      .child .k_trailing_label, .child .k_semicolon]
  | .AlterSchemaStatement => [.child .k_leading_label, .child .k_colon, .child .k_leading_comments, .token,
      .child .k_trailing_comments, .child .k_what, .child .k_if_exists, .child .k_ident, .child .k_add,
      .child .k_drop, .child .k_set, .child .k_default_collate, .child .k_options, .child .k_trailing_label,
      .child .k_semicolon]
  | .AlterTableStatement => [.child .k_leading_label, .child .k_colon, .child .k_leading_comments, .token,
      .child .k_trailing_comments, .child .k_what, .child .k_if_exists, .child .k_ident,
      .child .k_add_columns, .child .k_add_constraints, .child .k_alter_column_stmt, .child .k_drop_columns,
      .child .k_rename, .child .k_rename_columns, .child .k_set, .child .k_default_collate,
      .child .k_options, .child .k_to, .child .k_trailing_label, .child .k_semicolon]
  | .AlterVectorIndexStatement => [.child .k_leading_label, .child .k_colon, .child .k_leading_comments,
      .token, .child .k_trailing_comments, .child .k_what, .child .k_if_exists, .child .k_ident,
      .child .k_on, .child .k_operation, .child .k_trailing_label, .child .k_semicolon]
  | .AlterViewStatement => [.child .k_leading_label, .child .k_colon, .child .k_leading_comments, .token,
      .child .k_trailing_comments, .child .k_materialized, .child .k_what, .child .k_if_exists,
      .child .k_ident, .child .k_alter_column_stmt, .child .k_set, .child .k_options,
      .child .k_trailing_label, .child .k_semicolon]
  | .ArrayLiteral => [.child .k_type, .child .k_leading_comments, .token, .child .k_trailing_comments,
      .child .k_exprs, .child .k_rparen, .child .k_as, .child .k_alias, .child .k_order,
      .child .k_null_order, .child .k_row_value_alias, .child .k_comma]
  | .AssertStatement => [.child .k_leading_label, .child .k_colon, .child .k_leading_comments, .token,
      .child .k_trailing_comments, .child .k_expr, .child .k_as, .child .k_description,
      .child .k_trailing_label, .child .k_semicolon]
  | .Asterisk => [.child .k_leading_comments, .token, .child .k_trailing_comments, .child .k_except,
      .child .k_replace, .child .k_as, .child .k_alias, .child .k_order, .child .k_null_order,
      .child .k_row_value_alias, .child .k_comma]
  | .BasePipeOperator => [.child .k_leading_comments, .token, .child .k_trailing_comments,
      .child .k_keywords, .child .k_exprs]
  | .BinaryOperator => [.child .k_left, .child .k_leading_comments, .child .k_not, .token,
      .child .k_trailing_comments, .child .k_quantifier, .child .k_right, .child .k_as, .child .k_alias,
      .child .k_order, .child .k_null_order, .child .k_for_system_time_as_of, .child .k_row_value_alias,
      .child .k_comma, .child .k_with_offset, .child .k_match_recognize, .child .k_pivot, .child .k_unpivot,
      .child .k_tablesample]
  | .BeginStatement => [.child .k_leading_label, .child .k_colon, .child .k_leading_comments, .token,
      .child .k_trailing_comments, .child .k_stmts, .child .k_exception_when_error, .child .k_then,
      .child .k_end, .child .k_trailing_label, .child .k_semicolon]
  | .BetweenOperator => [.child .k_left, .child .k_not, .child .k_leading_comments, .token,
      .child .k_trailing_comments, .child .k_right_min, .child .k_and, .child .k_right_max, .child .k_as,
      .child .k_alias, .child .k_order, .child .k_null_order, .child .k_for_system_time_as_of,
      .child .k_row_value_alias, .child .k_comma, .child .k_with_offset, .child .k_match_recognize,
      .child .k_pivot, .child .k_unpivot, .child .k_tablesample]
  | .BooleanLiteral => [.child .k_leading_comments, .token, .child .k_trailing_comments, .child .k_as,
      .child .k_alias, .child .k_order, .child .k_null_order, .child .k_right, .child .k_row_value_alias,
      .child .k_comma]
  | .BreakContinueStatement => [.child .k_leading_label, .child .k_colon, .child .k_leading_comments, .token,
      .child .k_trailing_comments, .child .k_label, .child .k_trailing_label, .child .k_semicolon]
  | .CallingFunction => [.child .k_func, .child .k_leading_comments, .token, .child .k_trailing_comments,
      .child .k_distinct, .child .k_args, .child .k_ignore_nulls, .child .k_orderby, .child .k_limit,
      .child .k_having, .child .k_rparen, .child .k_over, .child .k_as, .child .k_alias, .child .k_order,
      .child .k_null_order, .child .k_for_system_time_as_of, .child .k_row_value_alias, .child .k_comma,
      .child .k_with_offset, .child .k_match_recognize, .child .k_pivot, .child .k_unpivot,
      .child .k_tablesample]
  | .CallingTableFunction => [.child .k_func, .child .k_leading_comments, .token,
      .child .k_trailing_comments, .child .k_distinct, .child .k_args, .child .k_ignore_nulls,
      .child .k_orderby, .child .k_limit, .child .k_having, .child .k_rparen, .child .k_over,
      .child .k_order, .child .k_null_order, .child .k_as, .child .k_alias, .child .k_for_system_time_as_of,
      .child .k_with_offset, .child .k_match_recognize, .child .k_pivot, .child .k_unpivot,
      .child .k_tablesample]
  | .CallingUnnest => [.child .k_func, .child .k_type, .child .k_with, .child .k_left, .child .k_method,
      .child .k_leading_comments, .child .k_not, .token, .child .k_trailing_comments,
      .child .k_differential_privacy, .child .k_distinct, .child .k_args, .child .k_distinct_or_all,
      .child .k_as_struct_or_value, .child .k_by, .child .k_corresponding, .child .k_except, .child .k_expr,
      .child .k_arms, .child .k_date_part, .child .k_end, .child .k_exprs, .child .k_from,
      .child .k_ignore_nulls, .child .k_quantifier, .child .k_replace, .child .k_right, .child .k_right_min,
      .child .k_and, .child .k_right_max, .child .k_semicolon, .child .k_stmt, .child .k_to,
      .child .k_to_date_part, .child .k_where, .child .k_groupby, .child .k_having, .child .k_qualify,
      .child .k_rparen, .child .k_window, .child .k_orderby, .child .k_limit, .child .k_over,
      .child .k_order, .child .k_null_order, .child .k_as, .child .k_alias, .child .k_for_system_time_as_of,
      .child .k_with_offset, .child .k_match_recognize, .child .k_pivot, .child .k_unpivot,
      .child .k_tablesample]
  | .CallStatement => [.child .k_leading_label, .child .k_colon, .child .k_leading_comments, .token,
      .child .k_trailing_comments, .child .k_procedure, .child .k_trailing_label, .child .k_semicolon]
  | .Constraint => [.child .k_constraint, .child .k_if_not_exists, .child .k_ident,
      .child .k_leading_comments, .token, .child .k_trailing_comments, .child .k_key, .child .k_columns,
      .child .k_references, .child .k_enforced, .child .k_comma]
  | .CaseExpr => [.child .k_leading_comments, .token, .child .k_trailing_comments, .child .k_expr,
      .child .k_arms, .child .k_end, .child .k_as, .child .k_alias, .child .k_order, .child .k_null_order,
      .child .k_row_value_alias, .child .k_comma]
  | .CaseExprArm => [.child .k_leading_comments, .token, .child .k_trailing_comments, .child .k_expr,
      .child .k_then, .child .k_result]
  | .CaseStatement => [.child .k_leading_label, .child .k_colon, .child .k_leading_comments, .token,
      .child .k_trailing_comments, .child .k_expr, .child .k_arms, .child .k_end_case,
      .child .k_trailing_label, .child .k_semicolon]
  | .CaseStatementArm => [.child .k_leading_comments, .token, .child .k_trailing_comments, .child .k_expr,
      .child .k_then, .child .k_stmts]
  | .CastArgument => [.child .k_cast_from, .child .k_leading_comments, .token, .child .k_trailing_comments,
      .child .k_cast_to, .child .k_format]
  | .CreateFunctionStatement => [.child .k_leading_label, .child .k_colon, .child .k_leading_comments,
      .token, .child .k_trailing_comments, .child .k_or_replace, .child .k_temp, .child .k_table,
      .child .k_aggregate, .child .k_what, .child .k_if_not_exists, .child .k_ident, .child .k_group,
      .child .k_returns, .child .k_determinism, .child .k_language, .child .k_remote, .child .k_connection,
      .child .k_options, .child .k_as, .child .k_trailing_label, .child .k_semicolon]
  | .CreateIndexStatement => [.child .k_leading_label, .child .k_colon, .child .k_leading_comments, .token,
      .child .k_trailing_comments, .child .k_or_replace, .child .k_what, .child .k_if_not_exists,
      .child .k_ident, .child .k_on, .child .k_tablename, .child .k_column_group, .child .k_storing,
      .child .k_partitionby, .child .k_options, .child .k_trailing_label, .child .k_semicolon]
  | .CreateModelStatement => [.child .k_leading_label, .child .k_colon, .child .k_leading_comments, .token,
      .child .k_trailing_comments, .child .k_or_replace, .child .k_what, .child .k_if_not_exists,
      .child .k_ident, .child .k_transform, .child .k_input, .child .k_output, .child .k_remote,
      .child .k_options, .child .k_query, .child .k_training_data_custom_holiday, .child .k_trailing_label,
      .child .k_semicolon]
  | .CreateProcedureStatement => [.child .k_leading_label, .child .k_colon, .child .k_leading_comments,
      .token, .child .k_trailing_comments, .child .k_or_replace, .child .k_what, .child .k_if_not_exists,
      .child .k_ident, .child .k_group, .child .k_external, .child .k_with_connection, .child .k_options,
      .child .k_language, .child .k_as, .child .k_stmt, .child .k_trailing_label, .child .k_semicolon]
  | .CreateReservationStatement => [.child .k_leading_label, .child .k_colon, .child .k_leading_comments,
      .token, .child .k_trailing_comments, .child .k_what, .child .k_ident, .child .k_as, .child .k_json,
      .child .k_json_string, .child .k_options, .child .k_trailing_label, .child .k_semicolon]
  | .CreateRowAccessPolicyStatement => [.child .k_leading_label, .child .k_colon, .child .k_leading_comments,
      .token, .child .k_trailing_comments, .child .k_or_replace, .child .k_what, .child .k_if_not_exists,
      .child .k_ident, .child .k_on, .child .k_grant, .child .k_to, .child .k_filter, .child .k_using,
      .child .k_trailing_label, .child .k_semicolon]
  | .CreateSchemaStatement => [.child .k_leading_label, .child .k_colon, .child .k_leading_comments, .token,
      .child .k_trailing_comments, .child .k_external, .child .k_what, .child .k_if_not_exists,
      .child .k_ident, .child .k_default_collate, .child .k_with_connection, .child .k_options,
      .child .k_trailing_label, .child .k_semicolon]
  | .CreateTableStatement => [.child .k_leading_label, .child .k_colon, .child .k_leading_comments, .token,
      .child .k_trailing_comments, .child .k_or_replace, .child .k_temp, .child .k_external,
      .child .k_snapshot, .child .k_what, .child .k_if_not_exists, .child .k_ident, .child .k_like_or_copy,
      .child .k_source_table, .child .k_column_schema_group, .child .k_default_collate,
      .child .k_partitionby, .child .k_clusterby, .child .k_with_connection,
      .child .k_with_partition_columns, .child .k_clone, .child .k_options, .child .k_as,
      .child .k_trailing_label, .child .k_semicolon]
  | .CreateViewStatement => [.child .k_leading_label, .child .k_colon, .child .k_leading_comments, .token,
      .child .k_trailing_comments, .child .k_or_replace, .child .k_materialized, .child .k_what,
      .child .k_if_not_exists, .child .k_ident, .child .k_column_name_list, .child .k_partitionby,
      .child .k_clusterby, .child .k_options, .child .k_as, .child .k_trailing_label, .child .k_semicolon]
  | .DeclareStatement => [.child .k_leading_label, .child .k_colon, .child .k_leading_comments, .token,
      .child .k_trailing_comments, .child .k_idents, .child .k_variable_type, .child .k_default,
      .child .k_trailing_label, .child .k_semicolon]
  | .DeleteStatement => [.child .k_leading_label, .child .k_colon, .child .k_leading_comments, .token,
      .child .k_trailing_comments, .child .k_from, .child .k_table_name, .child .k_where,
      .child .k_trailing_label, .child .k_semicolon]
  | .DifferentialPrivacyClause => [.child .k_leading_comments, .token, .child .k_trailing_comments,
      .child .k_differential_privacy, .child .k_options]
  | .DotOperator => [.child .k_left, .child .k_leading_comments, .token, .child .k_trailing_comments,
      .child .k_right, .child .k_as, .child .k_alias, .child .k_order, .child .k_null_order,
      .child .k_for_system_time_as_of, .child .k_row_value_alias, .child .k_comma, .child .k_with_offset,
      .child .k_match_recognize, .child .k_pivot, .child .k_unpivot, .child .k_tablesample]
  | .DropStatement => [.child .k_leading_label, .child .k_colon, .child .k_leading_comments, .token,
      .child .k_trailing_comments, .child .k_external, .child .k_materialized, .child .k_table,
      .child .k_what, .child .k_if_exists, .child .k_ident, .child .k_cascade_or_restrict, .child .k_on,
      .child .k_trailing_label, .child .k_semicolon]
  | .DropRowAccessPolicyStatement => [.child .k_leading_label, .child .k_colon, .child .k_leading_comments,
      .token, .child .k_trailing_comments, .child .k_what, .child .k_if_exists, .child .k_ident,
      .child .k_on, .child .k_trailing_label, .child .k_semicolon]
  | .ElseIfClause => [.child .k_leading_comments, .token, .child .k_trailing_comments, .child .k_condition,
      .child .k_then]
  | .EmptyStruct => [.child .k_leading_comments, .token, .child .k_trailing_comments, .child .k_rparen,
      .child .k_as, .child .k_alias, .child .k_order, .child .k_null_order, .child .k_row_value_alias,
      .child .k_comma]
  | .ExecuteStatement => [.child .k_leading_label, .child .k_colon, .child .k_leading_comments, .token,
      .child .k_trailing_comments, .child .k_immediate, .child .k_sql_expr, .child .k_into, .child .k_using,
      .child .k_trailing_label, .child .k_semicolon]
  | .ExportDataStatement => [.child .k_leading_label, .child .k_colon, .child .k_leading_comments, .token,
      .child .k_trailing_comments, .child .k_data, .child .k_with_connection, .child .k_options,
      .child .k_as, .child .k_trailing_label, .child .k_semicolon]
  | .ExportModelStatement => [.child .k_leading_label, .child .k_colon, .child .k_leading_comments, .token,
      .child .k_trailing_comments, .child .k_what, .child .k_ident, .child .k_options,
      .child .k_trailing_label, .child .k_semicolon]
  | .ExtractArgument => [.child .k_extract_datepart, .child .k_leading_comments, .token,
      .child .k_trailing_comments, .child .k_extract_from, .child .k_at_time_zone, .child .k_time_zone]
  | .ForSystemTimeAsOfClause => [.child .k_leading_comments, .token, .child .k_trailing_comments,
      .child .k_system_time_as_of, .child .k_expr]
  | .ForStatement => [.child .k_leading_label, .child .k_colon, .child .k_leading_comments, .token,
      .child .k_trailing_comments, .child .k_ident, .child .k_in, .child .k_do, .child .k_end_for,
      .child .k_trailing_label, .child .k_semicolon]
  | .FromStatement => [.child .k_leading_label, .child .k_colon, .child .k_with, .child .k_leading_comments,
      .token, .child .k_trailing_comments, .child .k_expr, .child .k_semicolon, .child .k_as,
      .child .k_alias, .child .k_for_system_time_as_of, .child .k_order, .child .k_null_order,
      .child .k_row_value_alias, .child .k_comma, .child .k_trailing_label, .child .k_with_offset,
      .child .k_match_recognize, .child .k_pivot, .child .k_unpivot, .child .k_tablesample]
  | .FunctionChain => [.child .k_left, .child .k_leading_comments, .token, .child .k_trailing_comments,
      .child .k_right, .child .k_as, .child .k_alias, .child .k_order, .child .k_null_order,
      .child .k_for_system_time_as_of, .child .k_row_value_alias, .child .k_comma, .child .k_with_offset,
      .child .k_match_recognize, .child .k_pivot, .child .k_unpivot, .child .k_tablesample]
  | .GrantStatement => [.child .k_leading_label, .child .k_colon, .child .k_leading_comments, .token,
      .child .k_trailing_comments, .child .k_roles, .child .k_on, .child .k_resource_type, .child .k_ident,
      .child .k_to, .child .k_trailing_label, .child .k_semicolon]
  | .GroupByExprs => [.child .k_leading_comments, .token, .child .k_trailing_comments, .child .k_by,
      .child .k_how, .child .k_exprs]
  | .GroupedIdentWithOptions => [.child .k_leading_comments, .token, .child .k_trailing_comments,
      .child .k_idents, .child .k_rparen]
  | .GroupedExpr => [.child .k_leading_comments, .token, .child .k_trailing_comments, .child .k_expr,
      .child .k_rparen, .child .k_as, .child .k_alias, .child .k_for_system_time_as_of, .child .k_order,
      .child .k_null_order, .child .k_row_value_alias, .child .k_comma, .child .k_with_offset,
      .child .k_match_recognize, .child .k_pivot, .child .k_unpivot, .child .k_tablesample]
  | .GroupedExprs => [.child .k_leading_comments, .token, .child .k_trailing_comments, .child .k_exprs,
      .child .k_rparen, .child .k_as, .child .k_row_value_alias, .child .k_comma]
  | .GroupedPattern => [.child .k_leading_comments, .token, .child .k_trailing_comments, .child .k_patterns,
      .child .k_rparen, .child .k_suffixes]
  | .GroupedStatement => [.child .k_leading_label, .child .k_colon, .child .k_with,
      .child .k_leading_comments, .token, .child .k_trailing_comments, .child .k_stmt, .child .k_rparen,
      .child .k_orderby, .child .k_limit, .child .k_as, .child .k_alias, .child .k_for_system_time_as_of,
      .child .k_order, .child .k_null_order, .child .k_row_value_alias, .child .k_comma,
      .child .k_trailing_label, .child .k_semicolon, .child .k_with_offset, .child .k_match_recognize,
      .child .k_pivot, .child .k_unpivot, .child .k_tablesample]
  | .GroupedType => [.child .k_leading_comments, .token, .child .k_trailing_comments, .child .k_type,
      .child .k_rparen]
  | .GroupedTypeDeclarationOrConstraints => [.child .k_leading_comments, .token, .child .k_trailing_comments,
      .child .k_declarations, .child .k_rparen]
  | .KeywordSequence => [.child .k_leading_comments, .token, .child .k_trailing_comments,
      .child .k_next_keyword]
  | .KeywordWithExpr => [.child .k_leading_comments, .token, .child .k_trailing_comments, .child .k_expr]
  | .KeywordWithExprs => [.child .k_leading_comments, .token, .child .k_trailing_comments, .child .k_exprs]
  | .KeywordWithType => [.child .k_leading_comments, .token, .child .k_trailing_comments, .child .k_type]
  | .KeywordWithGroupedXXX => [.child .k_leading_comments, .token, .child .k_trailing_comments,
      .child .k_group]
  | .KeywordWithStatement => [.child .k_leading_comments, .token, .child .k_trailing_comments, .child .k_stmt]
  | .KeywordWithStatements => [.child .k_leading_comments, .token, .child .k_trailing_comments,
      .child .k_stmts]
  | .Identifier => [.child .k_leading_comments, .token, .child .k_trailing_comments, .child .k_as,
      .child .k_alias, .child .k_order, .child .k_null_order, .child .k_for_system_time_as_of,
      .child .k_right, .child .k_row_value_alias, .child .k_comma, .child .k_with_offset,
      .child .k_match_recognize, .child .k_pivot, .child .k_unpivot, .child .k_tablesample]
  | .IdentWithOptions => [.child .k_left, .child .k_leading_comments, .token, .child .k_trailing_comments,
      .child .k_right, .child .k_trailing_idents, .child .k_options, .child .k_comma]
  | .IfStatement => [.child .k_leading_label, .child .k_colon, .child .k_leading_comments, .token,
      .child .k_trailing_comments, .child .k_condition, .child .k_then, .child .k_elseifs, .child .k_else,
      .child .k_end_if, .child .k_trailing_label, .child .k_semicolon]
  | .InsertStatement => [.child .k_leading_label, .child .k_colon, .child .k_leading_comments, .token,
      .child .k_trailing_comments, .child .k_into, .child .k_target_name, .child .k_columns, .child .k_input,
      .child .k_trailing_label, .child .k_semicolon]
  | .IntervalLiteral => [.child .k_leading_comments, .token, .child .k_trailing_comments, .child .k_expr,
      .child .k_date_part, .child .k_to, .child .k_to_date_part, .child .k_as, .child .k_alias,
      .child .k_order, .child .k_null_order, .child .k_row_value_alias, .child .k_comma]
  | .InOperator => [.child .k_left, .child .k_not, .child .k_leading_comments, .token,
      .child .k_trailing_comments, .child .k_right, .child .k_as, .child .k_alias, .child .k_order,
      .child .k_null_order, .child .k_for_system_time_as_of, .child .k_row_value_alias, .child .k_comma,
      .child .k_with_offset, .child .k_match_recognize, .child .k_pivot, .child .k_unpivot,
      .child .k_tablesample]
  | .IsDistinctFromOperator => [.child .k_left, .child .k_leading_comments, .token,
      .child .k_trailing_comments, .child .k_not, .child .k_distinct, .child .k_from, .child .k_right,
      .child .k_as, .child .k_alias, .child .k_order, .child .k_null_order, .child .k_for_system_time_as_of,
      .child .k_row_value_alias, .child .k_comma, .child .k_with_offset, .child .k_match_recognize,
      .child .k_pivot, .child .k_unpivot, .child .k_tablesample]
  | .JoinOperator => [.child .k_left, .child .k_join_type, .child .k_outer, .child .k_leading_comments,
      .token, .child .k_trailing_comments, .child .k_right, .child .k_on, .child .k_using, .child .k_alias,
      .child .k_as, .child .k_match_recognize, .child .k_pivot, .child .k_unpivot, .child .k_with_offset]
  | .JoinPipeOperator => [.child .k_method, .child .k_leading_comments, .token, .child .k_trailing_comments,
      .child .k_exprs, .child .k_on, .child .k_using, .child .k_keywords]
  | .LimitClause => [.child .k_leading_comments, .token, .child .k_trailing_comments, .child .k_expr,
      .child .k_offset]
  | .LimitPipeOperator => [.child .k_leading_comments, .token, .child .k_trailing_comments, .child .k_exprs,
      .child .k_offset, .child .k_keywords]
  | .LoadStatement => [.child .k_leading_label, .child .k_colon, .child .k_leading_comments, .token,
      .child .k_trailing_comments, .child .k_data, .child .k_into, .child .k_ident,
      .child .k_overwrite_partitions, .child .k_column_group, .child .k_partitionby, .child .k_clusterby,
      .child .k_options, .child .k_from, .child .k_files, .child .k_from_files,
      .child .k_with_partition_columns, .child .k_with, .child .k_connection, .child .k_connection_name,
      .child .k_trailing_label, .child .k_semicolon]
  | .LoopStatement => [.child .k_leading_label, .child .k_colon, .child .k_leading_comments, .token,
      .child .k_trailing_comments, .child .k_stmts, .child .k_end_loop, .child .k_trailing_label,
      .child .k_semicolon]
  | .MatchRecognizeClause => [.child .k_leading_comments, .token, .child .k_trailing_comments,
      .child .k_config, .child .k_as, .child .k_alias]
  | .MatchRecognizeConfig => [.child .k_leading_comments, .token, .child .k_trailing_comments,
      .child .k_partitionby, .child .k_orderby, .child .k_measures, .child .k_skip_rule, .child .k_pattern,
      .child .k_define, .child .k_options, .child .k_rparen]
  | .MatchRecognizePipeOperator => [.child .k_leading_comments, .token, .child .k_trailing_comments,
      .child .k_config, .child .k_as, .child .k_alias]
  | .MergeStatement => [.child .k_leading_label, .child .k_colon, .child .k_leading_comments, .token,
      .child .k_trailing_comments, .child .k_into, .child .k_table_name, .child .k_using, .child .k_on,
      .child .k_semicolon, .child .k_whens, .child .k_trailing_label]
  | .MultiTokenIdentifier => [.child .k_leading_comments, .token, .child .k_trailing_comments,
      .child .k_trailing_idents, .child .k_comma, .child .k_order, .child .k_null_order, .child .k_as,
      .child .k_alias, .child .k_for_system_time_as_of, .child .k_with_offset, .child .k_match_recognize,
      .child .k_pivot, .child .k_unpivot, .child .k_tablesample]
  | .NumericLiteral => [.child .k_leading_comments, .token, .child .k_trailing_comments, .child .k_as,
      .child .k_alias, .child .k_order, .child .k_null_order, .child .k_right, .child .k_row_value_alias,
      .child .k_comma]
  | .NullLiteral => [.child .k_leading_comments, .token, .child .k_trailing_comments, .child .k_as,
      .child .k_alias, .child .k_order, .child .k_null_order, .child .k_right, .child .k_row_value_alias,
      .child .k_comma]
  | .OrPattern => [.child .k_left, .child .k_leading_comments, .token, .child .k_trailing_comments,
      .child .k_right]
  | .OverClause => [.child .k_leading_comments, .token, .child .k_trailing_comments, .child .k_window]
  | .OverwritePartitionsClause => [.child .k_overwrite, .child .k_leading_comments, .token,
      .child .k_trailing_comments, .child .k_grouped_expr]
  | .Parameter => [.child .k_leading_comments, .token, .child .k_trailing_comments, .child .k_as,
      .child .k_alias, .child .k_order, .child .k_null_order, .child .k_right, .child .k_row_value_alias,
      .child .k_comma, .child .k_for_system_time_as_of, .child .k_match_recognize, .child .k_pivot,
      .child .k_tablesample, .child .k_unpivot, .child .k_with_offset]
  | .Pattern => [.child .k_leading_comments, .token, .child .k_trailing_comments, .child .k_suffixes]
  | .PatternClause => [.child .k_leading_comments, .token, .child .k_trailing_comments, .child .k_pattern]
  | .PatternQuantifier => [.child .k_leading_comments, .token, .child .k_trailing_comments, .child .k_min,
      .child .k_comma, .child .k_max, .child .k_rbrace]
  | .PipeStatement => [.child .k_leading_label, .child .k_colon, .child .k_with, .child .k_left,
      .child .k_leading_comments, .token, .child .k_trailing_comments, .child .k_right, .child .k_semicolon,
      .child .k_as, .child .k_alias, .child .k_for_system_time_as_of, .child .k_order, .child .k_null_order,
      .child .k_row_value_alias, .child .k_comma, .child .k_trailing_label, .child .k_with_offset,
      .child .k_match_recognize, .child .k_pivot, .child .k_unpivot, .child .k_tablesample]
  | .PivotConfig => [.child .k_leading_comments, .token, .child .k_trailing_comments, .child .k_exprs,
      .child .k_for, .child .k_in, .child .k_rparen]
  | .PivotOperator => [.child .k_leading_comments, .token, .child .k_trailing_comments, .child .k_config,
      .child .k_as, .child .k_alias]
  | .PivotPipeOperator => [.child .k_leading_comments, .token, .child .k_trailing_comments, .child .k_config,
      .child .k_as, .child .k_alias, .child .k_keywords]
  | .RaiseStatement => [.child .k_leading_label, .child .k_colon, .child .k_leading_comments, .token,
      .child .k_trailing_comments, .child .k_using, .child .k_trailing_label, .child .k_semicolon]
  | .RangeLiteral => [.child .k_type, .child .k_leading_comments, .token, .child .k_trailing_comments,
      .child .k_as, .child .k_alias, .child .k_order, .child .k_null_order, .child .k_row_value_alias,
      .child .k_comma]
  | .RenameColumnClause => [.child .k_leading_comments, .token, .child .k_trailing_comments,
      .child .k_column, .child .k_if_exists, .child .k_ident, .child .k_to, .child .k_comma]
  | .RepeatStatement => [.child .k_leading_label, .child .k_colon, .child .k_leading_comments, .token,
      .child .k_trailing_comments, .child .k_stmts, .child .k_until, .child .k_end_repeat,
      .child .k_trailing_label, .child .k_semicolon]
  | .RevokeStatement => [.child .k_leading_label, .child .k_colon, .child .k_leading_comments, .token,
      .child .k_trailing_comments, .child .k_roles, .child .k_on, .child .k_resource_type, .child .k_ident,
      .child .k_from, .child .k_trailing_label, .child .k_semicolon]
  | .SelectPipeOperator => [.child .k_leading_comments, .token, .child .k_trailing_comments,
      .child .k_keywords, .child .k_exprs, .child .k_window]
  | .SelectStatement => [.child .k_leading_label, .child .k_colon, .child .k_with,
      .child .k_leading_comments, .token, .child .k_trailing_comments, .child .k_differential_privacy,
      .child .k_distinct_or_all, .child .k_as_struct_or_value, .child .k_exprs, .child .k_from,
      .child .k_where, .child .k_groupby, .child .k_having, .child .k_qualify, .child .k_window,
      .child .k_orderby, .child .k_limit, .child .k_as, .child .k_alias, .child .k_for_system_time_as_of,
      .child .k_order, .child .k_null_order, .child .k_row_value_alias, .child .k_comma,
      .child .k_trailing_label, .child .k_semicolon, .child .k_with_offset, .child .k_match_recognize,
      .child .k_pivot, .child .k_unpivot, .child .k_tablesample]
  | .SetOperator => [.child .k_leading_label, .child .k_colon, .child .k_with, .child .k_left,
      .child .k_method, .child .k_leading_comments, .token, .child .k_trailing_comments,
      .child .k_distinct_or_all, .child .k_by, .child .k_corresponding, .child .k_right, .child .k_orderby,
      .child .k_limit, .child .k_as, .child .k_alias, .child .k_for_system_time_as_of, .child .k_order,
      .child .k_null_order, .child .k_row_value_alias, .child .k_comma, .child .k_trailing_label,
      .child .k_semicolon, .child .k_with_offset, .child .k_match_recognize, .child .k_pivot,
      .child .k_unpivot, .child .k_tablesample]
  | .SetStatement => [.child .k_leading_label, .child .k_colon, .child .k_leading_comments, .token,
      .child .k_trailing_comments, .child .k_expr, .child .k_trailing_label, .child .k_semicolon]
  | .SingleTokenStatement => [.child .k_leading_label, .child .k_colon, .child .k_leading_comments, .token,
      .child .k_trailing_comments, .child .k_trailing_label, .child .k_semicolon]
  | .StringLiteral => [.child .k_leading_comments, .token, .child .k_trailing_comments, .child .k_as,
      .child .k_alias, .child .k_order, .child .k_null_order, .child .k_right, .child .k_row_value_alias,
      .child .k_comma]
  | .StructLiteral => [.child .k_type, .child .k_leading_comments, .token, .child .k_trailing_comments,
      .child .k_exprs, .child .k_rparen, .child .k_as, .child .k_alias, .child .k_order,
      .child .k_null_order, .child .k_row_value_alias, .child .k_comma]
  | .TableSampleClause => [.child .k_leading_comments, .token, .child .k_trailing_comments, .child .k_system,
      .child .k_group]
  | .TableSamplePipeOperator => [.child .k_leading_comments, .token, .child .k_trailing_comments,
      .child .k_keywords, .child .k_group]
  | .TableSampleRatio => [.child .k_leading_comments, .token, .child .k_trailing_comments, .child .k_expr,
      .child .k_percent, .child .k_rparen]
  | .Template => [.child .k_leading_comments, .token, .child .k_trailing_comments, .child .k_as,
      .child .k_alias, .child .k_order, .child .k_null_order, .child .k_right, .child .k_row_value_alias,
      .child .k_comma, .child .k_for_system_time_as_of, .child .k_match_recognize, .child .k_pivot,
      .child .k_tablesample, .child .k_unpivot, .child .k_with_offset]
  | .TrainingDataCustomHolidayClause => [.child .k_leading_comments, .token, .child .k_trailing_comments,
      .child .k_training_data, .child .k_custom_holiday, .child .k_rparen]
  | .TransactionStatement => [.child .k_leading_label, .child .k_colon, .child .k_leading_comments, .token,
      .child .k_trailing_comments, .child .k_transaction, .child .k_trailing_label, .child .k_semicolon]
  | .TruncateStatement => [.child .k_leading_label, .child .k_colon, .child .k_leading_comments, .token,
      .child .k_trailing_comments, .child .k_table, .child .k_table_name, .child .k_trailing_label,
      .child .k_semicolon]
  | .Type => [.child .k_leading_comments, .token, .child .k_trailing_comments, .child .k_parameter,
      .child .k_type, .child .k_type_declaration, .child .k_collate, .child .k_constraint,
      .child .k_primarykey, .child .k_enforced, .child .k_references, .child .k_default, .child .k_not_null,
      .child .k_options, .child .k_aggregate]
  | .TypeDeclaration => [.child .k_in_out, .child .k_leading_comments, .token, .child .k_trailing_comments,
      .child .k_type, .child .k_comma]
  | .UnaryOperator => [.child .k_leading_comments, .token, .child .k_trailing_comments, .child .k_right,
      .child .k_as, .child .k_alias, .child .k_order, .child .k_null_order, .child .k_row_value_alias,
      .child .k_comma]
  | .Unknown => [.child .k_leading_comments, .token, .child .k_trailing_comments, .child .k_as,
      .child .k_alias, .child .k_order, .child .k_null_order, .child .k_right, .child .k_row_value_alias,
      .child .k_comma]
  | .UndropStatement => [.child .k_leading_label, .child .k_colon, .child .k_leading_comments, .token,
      .child .k_trailing_comments, .child .k_what, .child .k_if_not_exists, .child .k_ident,
      .child .k_trailing_label, .child .k_semicolon]
  | .UnionPipeOperator => [.child .k_method, .child .k_leading_comments, .token, .child .k_trailing_comments,
      .child .k_keywords, .child .k_by, .child .k_corresponding, .child .k_exprs]
  | .UnpivotOperator => [.child .k_leading_comments, .token, .child .k_trailing_comments,
      .child .k_include_or_exclude_nulls, .child .k_config, .child .k_as, .child .k_alias]
  | .UnpivotPipeOperator => [.child .k_leading_comments, .token, .child .k_trailing_comments,
      .child .k_keywords, .child .k_config, .child .k_as, .child .k_alias]
  | .UnpivotConfig => [.child .k_leading_comments, .token, .child .k_trailing_comments, .child .k_expr,
      .child .k_for, .child .k_in, .child .k_rparen]
  | .UpdateStatement => [.child .k_leading_label, .child .k_colon, .child .k_leading_comments, .token,
      .child .k_trailing_comments, .child .k_table_name, .child .k_set, .child .k_from, .child .k_where,
      .child .k_trailing_label, .child .k_semicolon]
  | .WhenClause => [.child .k_leading_comments, .token, .child .k_trailing_comments, .child .k_not,
      .child .k_matched, .child .k_by_target_or_source, .child .k_and, .child .k_then]
  | .WhileStatement => [.child .k_leading_label, .child .k_colon, .child .k_leading_comments, .token,
      .child .k_trailing_comments, .child .k_condition, .child .k_do, .child .k_end_while,
      .child .k_trailing_label, .child .k_semicolon]
  | .WindowClause => [.child .k_leading_comments, .token, .child .k_trailing_comments, .child .k_window_exprs]
  | .WindowExpr => [.child .k_leading_comments, .token, .child .k_trailing_comments, .child .k_as,
      .child .k_window, .child .k_comma]
  | .WindowFrameClause => [.child .k_leading_comments, .token, .child .k_trailing_comments,
      .child .k_between, .child .k_start, .child .k_and, .child .k_end]
  | .WindowSpecification => [.child .k_leading_comments, .token, .child .k_trailing_comments, .child .k_name,
      .child .k_partitionby, .child .k_orderby, .child .k_frame, .child .k_rparen]
  | .WithClause => [.child .k_leading_comments, .token, .child .k_trailing_comments, .child .k_recursive,
      .child .k_queries]
  | .WithOffsetClause => [.child .k_leading_comments, .token, .child .k_trailing_comments, .child .k_offset,
      .child .k_as, .child .k_alias]
  | .WithPipeOperator => [.child .k_leading_comments, .token, .child .k_trailing_comments,
      .child .k_recursive, .child .k_queries]
  | .WithPartitionColumnsClause => [.child .k_leading_comments, .token, .child .k_trailing_comments,
      .child .k_partition_columns, .child .k_column_schema_group]
  | .WithQuery => [.child .k_leading_comments, .token, .child .k_trailing_comments, .child .k_as,
      .child .k_stmt, .child .k_comma]
  | .XXXByExprs => [.child .k_leading_comments, .token, .child .k_trailing_comments, .child .k_by,
      .child .k_exprs]
  | _ => [.child .k_leading_comments, .token, .child .k_trailing_comments]

/-- Parts whose order is not fixed: `NOT LIKE` and `IS NOT`, `ASC AS b` and `AS b ASC`, clauses that may
come in either order. -/
def swappable : NodeType → List (Slot × Slot)
  | .AccessOperator => [(.child .k_alias, .child .k_null_order), (.child .k_alias, .child .k_order),
      (.child .k_as, .child .k_null_order), (.child .k_as, .child .k_order)]
  | .ArrayLiteral => [(.child .k_as, .child .k_null_order), (.child .k_as, .child .k_order)]
  | .Asterisk => [(.child .k_as, .child .k_null_order), (.child .k_as, .child .k_order)]
  | .BinaryOperator => [(.child .k_alias, .child .k_null_order), (.child .k_alias, .child .k_order),
      (.child .k_as, .child .k_null_order), (.child .k_as, .child .k_order),
      (.child .k_leading_comments, .child .k_not), (.child .k_not, .token),
      (.child .k_not, .child .k_trailing_comments)]
  | .BetweenOperator => [(.child .k_alias, .child .k_null_order), (.child .k_alias, .child .k_order),
      (.child .k_as, .child .k_null_order), (.child .k_as, .child .k_order)]
  | .BooleanLiteral => [(.child .k_as, .child .k_null_order), (.child .k_as, .child .k_order)]
  | .CallingFunction => [(.child .k_alias, .child .k_null_order), (.child .k_alias, .child .k_order),
      (.child .k_as, .child .k_null_order), (.child .k_as, .child .k_order)]
  | .CallingUnnest => [(.child .k_having, .child .k_limit), (.child .k_having, .child .k_orderby),
      (.child .k_leading_comments, .child .k_not), (.child .k_limit, .child .k_rparen),
      (.child .k_not, .token), (.child .k_not, .child .k_trailing_comments),
      (.child .k_orderby, .child .k_rparen)]
  | .CaseExpr => [(.child .k_as, .child .k_null_order), (.child .k_as, .child .k_order)]
  | .DotOperator => [(.child .k_alias, .child .k_null_order), (.child .k_alias, .child .k_order),
      (.child .k_as, .child .k_null_order), (.child .k_as, .child .k_order)]
  | .EmptyStruct => [(.child .k_as, .child .k_null_order), (.child .k_as, .child .k_order)]
  | .FromStatement => [(.child .k_as, .child .k_null_order), (.child .k_as, .child .k_order),
      (.child .k_semicolon, .child .k_trailing_label)]
  | .FunctionChain => [(.child .k_alias, .child .k_null_order), (.child .k_alias, .child .k_order),
      (.child .k_as, .child .k_null_order), (.child .k_as, .child .k_order)]
  | .GroupedExpr => [(.child .k_as, .child .k_null_order), (.child .k_as, .child .k_order)]
  | .GroupedStatement => [(.child .k_as, .child .k_null_order), (.child .k_as, .child .k_order)]
  | .Identifier => [(.child .k_alias, .child .k_null_order), (.child .k_alias, .child .k_order),
      (.child .k_as, .child .k_null_order), (.child .k_as, .child .k_order)]
  | .IntervalLiteral => [(.child .k_as, .child .k_null_order), (.child .k_as, .child .k_order)]
  | .InOperator => [(.child .k_alias, .child .k_null_order), (.child .k_alias, .child .k_order),
      (.child .k_as, .child .k_null_order), (.child .k_as, .child .k_order)]
  | .IsDistinctFromOperator => [(.child .k_alias, .child .k_null_order), (.child .k_alias, .child .k_order),
      (.child .k_as, .child .k_null_order), (.child .k_as, .child .k_order)]
  | .MergeStatement => [(.child .k_on, .child .k_semicolon), (.child .k_semicolon, .child .k_trailing_label),
      (.child .k_semicolon, .child .k_whens)]
  | .NumericLiteral => [(.child .k_as, .child .k_null_order), (.child .k_as, .child .k_order)]
  | .NullLiteral => [(.child .k_as, .child .k_null_order), (.child .k_as, .child .k_order)]
  | .Parameter => [(.child .k_as, .child .k_null_order), (.child .k_as, .child .k_order)]
  | .PipeStatement => [(.child .k_as, .child .k_null_order), (.child .k_as, .child .k_order),
      (.child .k_semicolon, .child .k_trailing_label)]
  | .RangeLiteral => [(.child .k_as, .child .k_null_order), (.child .k_as, .child .k_order)]
  | .SelectStatement => [(.child .k_as, .child .k_null_order), (.child .k_as, .child .k_order)]
  | .SetOperator => [(.child .k_as, .child .k_null_order), (.child .k_as, .child .k_order)]
  | .StringLiteral => [(.child .k_as, .child .k_null_order), (.child .k_as, .child .k_order)]
  | .StructLiteral => [(.child .k_as, .child .k_null_order), (.child .k_as, .child .k_order)]
  | .Template => [(.child .k_as, .child .k_null_order), (.child .k_as, .child .k_order)]
  | .Type => [(.child .k_enforced, .child .k_references)]
  | .UnaryOperator => [(.child .k_as, .child .k_null_order), (.child .k_as, .child .k_order)]
  | .Unknown => [(.child .k_as, .child .k_null_order), (.child .k_as, .child .k_order)]
  | _ => []

end Verif.Spec
