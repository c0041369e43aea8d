import Verif.Analysis.CheckFn
/-! Generated by tools/gencheck.py: the kernel evaluates the analysis on function bodies. -/
namespace Verif.AI

set_option maxRecDepth 100000

theorem check_parse_between_operator : checkFn .parse_between_operator = true := by decide +kernel

theorem check_parse_constraint : checkFn .parse_constraint = true := by decide +kernel

theorem check_parse_enforced : checkFn .parse_enforced = true := by decide +kernel

theorem check_parse_grouped_exprs : checkFn .parse_grouped_exprs = true := by decide +kernel

theorem check_parse_identifier : checkFn .parse_identifier = true := by decide +kernel

theorem check_parse_in_operator : checkFn .parse_in_operator = true := by decide +kernel

theorem check_parse_keyword_with_grouped_exprs : checkFn .parse_keyword_with_grouped_exprs = true := by decide +kernel

theorem check_parse_n_keywords : checkFn .parse_n_keywords = true := by decide +kernel

theorem check_parse_table : checkFn .parse_table = true := by decide +kernel

theorem check_parse_window_expr : checkFn .parse_window_expr = true := by decide +kernel

theorem check_parse_with_clause : checkFn .parse_with_clause = true := by decide +kernel

theorem check_parse_xxxby_exprs : checkFn .parse_xxxby_exprs = true := by decide +kernel

theorem check_parse_table_sample_ratio : checkFn .parse_table_sample_ratio = true := by decide +kernel

theorem check_parse_unpivot_config_clause : checkFn .parse_unpivot_config_clause = true := by decide +kernel

theorem check_parse_match_recognize_config : checkFn .parse_match_recognize_config = true := by decide +kernel

theorem check_parse_pattern_clause : checkFn .parse_pattern_clause = true := by decide +kernel

theorem check_parse_pattern : checkFn .parse_pattern = true := by decide +kernel

theorem check_parse_corresponding_clause : checkFn .parse_corresponding_clause = true := by decide +kernel

theorem check_parse_select_statement : checkFn .parse_select_statement = true := by decide +kernel

theorem check_parse_pipe_statement : checkFn .parse_pipe_statement = true := by decide +kernel

theorem check_parse_limit_pipe_operator : checkFn .parse_limit_pipe_operator = true := by decide +kernel

theorem check_parse_union_pipe_operator : checkFn .parse_union_pipe_operator = true := by decide +kernel

theorem check_parse_tablesample_pipe_operator : checkFn .parse_tablesample_pipe_operator = true := by decide +kernel

theorem check_parse_unpivot_pipe_operator : checkFn .parse_unpivot_pipe_operator = true := by decide +kernel

theorem check_parse_match_recognize_pipe_operator : checkFn .parse_match_recognize_pipe_operator = true := by decide +kernel

theorem check_parse_insert_statement : checkFn .parse_insert_statement = true := by decide +kernel

theorem check_parse_truncate_statement : checkFn .parse_truncate_statement = true := by decide +kernel

theorem check_parse_merge_statement : checkFn .parse_merge_statement = true := by decide +kernel

theorem check_parse_create_search_index_statement : checkFn .parse_create_search_index_statement = true := by decide +kernel

theorem check_parse_create_view_statement : checkFn .parse_create_view_statement = true := by decide +kernel

theorem check_parse_create_procedure_statement : checkFn .parse_create_procedure_statement = true := by decide +kernel

theorem check_parse_create_model_statement : checkFn .parse_create_model_statement = true := by decide +kernel

theorem check_parse_alter_table_statement : checkFn .parse_alter_table_statement = true := by decide +kernel

theorem check_parse_alter_vector_index_statement : checkFn .parse_alter_vector_index_statement = true := by decide +kernel

theorem check_parse_alter_organization_statement : checkFn .parse_alter_organization_statement = true := by decide +kernel

theorem check_parse_alter_bicapacity_statement : checkFn .parse_alter_bicapacity_statement = true := by decide +kernel

theorem check_parse_alter_model_statement : checkFn .parse_alter_model_statement = true := by decide +kernel

theorem check_parse_drop_statement_general : checkFn .parse_drop_statement_general = true := by decide +kernel

theorem check_parse_grant_statement : checkFn .parse_grant_statement = true := by decide +kernel

theorem check_parse_create_reservation_statement : checkFn .parse_create_reservation_statement = true := by decide +kernel

theorem check_parse_set_statement : checkFn .parse_set_statement = true := by decide +kernel

theorem check_parse_begin_statement : checkFn .parse_begin_statement = true := by decide +kernel

theorem check_parse_labeled_statement : checkFn .parse_labeled_statement = true := by decide +kernel

theorem check_parse_loop_statement : checkFn .parse_loop_statement = true := by decide +kernel

theorem check_parse_while_statement : checkFn .parse_while_statement = true := by decide +kernel

theorem check_parse_for_statement : checkFn .parse_for_statement = true := by decide +kernel

theorem check_parse_raise_statement : checkFn .parse_raise_statement = true := by decide +kernel

theorem check_parse_call_statement : checkFn .parse_call_statement = true := by decide +kernel

theorem check_parse_export_data_statement : checkFn .parse_export_data_statement = true := by decide +kernel

theorem check_parse_load_statement : checkFn .parse_load_statement = true := by decide +kernel

end Verif.AI
