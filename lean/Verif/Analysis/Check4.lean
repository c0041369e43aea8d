import Verif.Analysis.CheckFn
/-! Generated by tools/gencheck.py: the kernel evaluates the analysis on function bodies. -/
namespace Verif.AI

set_option maxRecDepth 100000

theorem check_parse_binary_operator : checkFn .parse_binary_operator = true := by decide +kernel

theorem check_parse_cte : checkFn .parse_cte = true := by decide +kernel

theorem check_parse_exprs : checkFn .parse_exprs = true := by decide +kernel

theorem check_parse_grouped_type_declaration_or_constraints : checkFn .parse_grouped_type_declaration_or_constraints = true := by decide +kernel

theorem check_parse_single_or_multi_token_identifier : checkFn .parse_single_or_multi_token_identifier = true := by decide +kernel

theorem check_parse_is_distinct_from_operator : checkFn .parse_is_distinct_from_operator = true := by decide +kernel

theorem check_parse_keyword_with_statements : checkFn .parse_keyword_with_statements = true := by decide +kernel

theorem check_parse_set_operator : checkFn .parse_set_operator = true := by decide +kernel

theorem check_parse_type : checkFn .parse_type = true := by decide +kernel

theorem check_parse_with_connection_clause : checkFn .parse_with_connection_clause = true := by decide +kernel

theorem check_parse_window_clause : checkFn .parse_window_clause = true := by decide +kernel

theorem check_parse_groupby_exprs : checkFn .parse_groupby_exprs = true := by decide +kernel

theorem check_parse_pivot_config_clause : checkFn .parse_pivot_config_clause = true := by decide +kernel

theorem check_parse_match_recognize_clause : checkFn .parse_match_recognize_clause = true := by decide +kernel

theorem check_parse_by_name_clause : checkFn .parse_by_name_clause = true := by decide +kernel

theorem check_parse_grouped_pattern : checkFn .parse_grouped_pattern = true := by decide +kernel

theorem check_parse_quantifier : checkFn .parse_quantifier = true := by decide +kernel

theorem check_push_trailing_alias : checkFn .push_trailing_alias = true := by decide +kernel

theorem check_parse_from_statement : checkFn .parse_from_statement = true := by decide +kernel

theorem check_parse_select_pipe_operator : checkFn .parse_select_pipe_operator = true := by decide +kernel

theorem check_parse_aggregate_pipe_operator : checkFn .parse_aggregate_pipe_operator = true := by decide +kernel

theorem check_parse_join_pipe_operator : checkFn .parse_join_pipe_operator = true := by decide +kernel

theorem check_parse_pivot_pipe_operator : checkFn .parse_pivot_pipe_operator = true := by decide +kernel

theorem check_parse_with_pipe_operator : checkFn .parse_with_pipe_operator = true := by decide +kernel

theorem check_parse_base_pipe_operator : checkFn .parse_base_pipe_operator = true := by decide +kernel

theorem check_parse_delete_statement : checkFn .parse_delete_statement = true := by decide +kernel

theorem check_parse_update_statement : checkFn .parse_update_statement = true := by decide +kernel

theorem check_parse_create_schema_statement : checkFn .parse_create_schema_statement = true := by decide +kernel

theorem check_parse_create_table_statement : checkFn .parse_create_table_statement = true := by decide +kernel

theorem check_parse_create_function_statement : checkFn .parse_create_function_statement = true := by decide +kernel

theorem check_parse_create_row_access_policy_statement : checkFn .parse_create_row_access_policy_statement = true := by decide +kernel

theorem check_parse_alter_schema_statement : checkFn .parse_alter_schema_statement = true := by decide +kernel

theorem check_parse_alter_column_statement : checkFn .parse_alter_column_statement = true := by decide +kernel

theorem check_parse_alter_view_statement : checkFn .parse_alter_view_statement = true := by decide +kernel

theorem check_parse_alter_project_statement : checkFn .parse_alter_project_statement = true := by decide +kernel

theorem check_parse_alter_reservation_statement : checkFn .parse_alter_reservation_statement = true := by decide +kernel

theorem check_parse_drop_row_access_policy_statement : checkFn .parse_drop_row_access_policy_statement = true := by decide +kernel

theorem check_parse_undrop_statement : checkFn .parse_undrop_statement = true := by decide +kernel

theorem check_parse_revoke_statement : checkFn .parse_revoke_statement = true := by decide +kernel

theorem check_parse_declare_statement : checkFn .parse_declare_statement = true := by decide +kernel

theorem check_parse_execute_statement : checkFn .parse_execute_statement = true := by decide +kernel

theorem check_parse_if_statement : checkFn .parse_if_statement = true := by decide +kernel

theorem check_parse_break_continue_statement : checkFn .parse_break_continue_statement = true := by decide +kernel

theorem check_parse_repeat_statement : checkFn .parse_repeat_statement = true := by decide +kernel

theorem check_parse_single_token_statement : checkFn .parse_single_token_statement = true := by decide +kernel

theorem check_parse_transaction_statement : checkFn .parse_transaction_statement = true := by decide +kernel

theorem check_parse_case_statement : checkFn .parse_case_statement = true := by decide +kernel

theorem check_parse_assert_satement : checkFn .parse_assert_satement = true := by decide +kernel

theorem check_parse_export_model_statement : checkFn .parse_export_model_statement = true := by decide +kernel

end Verif.AI
