import Verif.Analysis.OrderCheck1
import Verif.Analysis.OrderCheck2
import Verif.Analysis.OrderCheck3
/-! Generated by tools/genordercheck.py: the table of summaries has been checked completely. -/
namespace Verif.OI

/-- Every summary in the table is confirmed by the analysis. -/
theorem all_checked : ∀ f, checkFn f = true := by
  intro f
  cases f
  · exact check_parse_between_operator
  · exact check_parse_binary_operator
  · exact check_parse_constraint
  · exact check_parse_cte
  · exact check_parse_enforced
  · exact check_parse_expr
  · exact check_parse_exprs
  · exact check_parse_grouped_exprs
  · exact check_parse_grouped_type_declaration_or_constraints
  · exact check_parse_identifier
  · exact check_parse_single_or_multi_token_identifier
  · exact check_parse_in_operator
  · exact check_parse_is_distinct_from_operator
  · exact check_parse_keyword_with_grouped_exprs
  · exact check_parse_keyword_with_statements
  · exact check_parse_n_keywords
  · exact check_parse_set_operator
  · exact check_parse_statement
  · exact check_parse_table
  · exact check_parse_type
  · exact check_parse_window_expr
  · exact check_parse_with_connection_clause
  · exact check_parse_with_clause
  · exact check_parse_window_clause
  · exact check_parse_xxxby_exprs
  · exact check_parse_groupby_exprs
  · exact check_parse_table_sample_ratio
  · exact check_parse_pivot_config_clause
  · exact check_parse_unpivot_config_clause
  · exact check_parse_match_recognize_clause
  · exact check_parse_match_recognize_config
  · exact check_parse_by_name_clause
  · exact check_parse_pattern_clause
  · exact check_parse_grouped_pattern
  · exact check_parse_pattern
  · exact check_parse_quantifier
  · exact check_parse_corresponding_clause
  · exact check_push_trailing_alias
  · exact check_parse_select_statement
  · exact check_parse_from_statement
  · exact check_parse_pipe_statement
  · exact check_parse_select_pipe_operator
  · exact check_parse_limit_pipe_operator
  · exact check_parse_aggregate_pipe_operator
  · exact check_parse_union_pipe_operator
  · exact check_parse_join_pipe_operator
  · exact check_parse_tablesample_pipe_operator
  · exact check_parse_pivot_pipe_operator
  · exact check_parse_unpivot_pipe_operator
  · exact check_parse_with_pipe_operator
  · exact check_parse_match_recognize_pipe_operator
  · exact check_parse_base_pipe_operator
  · exact check_parse_insert_statement
  · exact check_parse_delete_statement
  · exact check_parse_truncate_statement
  · exact check_parse_update_statement
  · exact check_parse_merge_statement
  · exact check_parse_create_schema_statement
  · exact check_parse_create_search_index_statement
  · exact check_parse_create_table_statement
  · exact check_parse_create_view_statement
  · exact check_parse_create_function_statement
  · exact check_parse_create_procedure_statement
  · exact check_parse_create_row_access_policy_statement
  · exact check_parse_create_model_statement
  · exact check_parse_alter_schema_statement
  · exact check_parse_alter_table_statement
  · exact check_parse_alter_column_statement
  · exact check_parse_alter_vector_index_statement
  · exact check_parse_alter_view_statement
  · exact check_parse_alter_organization_statement
  · exact check_parse_alter_project_statement
  · exact check_parse_alter_bicapacity_statement
  · exact check_parse_alter_reservation_statement
  · exact check_parse_alter_model_statement
  · exact check_parse_drop_row_access_policy_statement
  · exact check_parse_drop_statement_general
  · exact check_parse_undrop_statement
  · exact check_parse_grant_statement
  · exact check_parse_revoke_statement
  · exact check_parse_create_reservation_statement
  · exact check_parse_declare_statement
  · exact check_parse_set_statement
  · exact check_parse_execute_statement
  · exact check_parse_begin_statement
  · exact check_parse_if_statement
  · exact check_parse_labeled_statement
  · exact check_parse_break_continue_statement
  · exact check_parse_loop_statement
  · exact check_parse_repeat_statement
  · exact check_parse_while_statement
  · exact check_parse_single_token_statement
  · exact check_parse_for_statement
  · exact check_parse_transaction_statement
  · exact check_parse_raise_statement
  · exact check_parse_case_statement
  · exact check_parse_call_statement
  · exact check_parse_assert_satement
  · exact check_parse_export_data_statement
  · exact check_parse_export_model_statement
  · exact check_parse_load_statement

theorem table_checked : ∀ f, ∀ e ∈ Table.table f, checkEntry rules Table.table (Program.defs f) e = true :=
  fun f => checkFn_iff (all_checked f)

end Verif.OI
