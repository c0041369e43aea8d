import Verif.Analysis.AcceptTable
import Verif.Model.Program
/-! Generated by tools/genacceptcheck.py: the kernel checks the summaries of Verif.Analysis.AcceptTable. -/
set_option maxRecDepth 100000
namespace Verif.GI

theorem check_e1 : checkEntry tables acceptTab (Program.defs .parse_statement) e1 = true := by decide +kernel
theorem check_e4 : checkEntry tables acceptTab (Program.defs .parse_select_statement) e4 = true := by decide +kernel
theorem check_e11 : checkEntry tables acceptTab (Program.defs .parse_update_statement) e11 = true := by decide +kernel
theorem check_e13 : checkEntry tables acceptTab (Program.defs .parse_create_schema_statement) e13 = true := by decide +kernel
theorem check_e14 : checkEntry tables acceptTab (Program.defs .parse_create_function_statement) e14 = true := by decide +kernel
theorem check_e16 : checkEntry tables acceptTab (Program.defs .parse_create_table_statement) e16 = true := by decide +kernel
theorem check_e18 : checkEntry tables acceptTab (Program.defs .parse_create_view_statement) e18 = true := by decide +kernel
theorem check_e21 : checkEntry tables acceptTab (Program.defs .parse_create_row_access_policy_statement) e21 = true := by decide +kernel
theorem check_e23 : checkEntry tables acceptTab (Program.defs .parse_create_search_index_statement) e23 = true := by decide +kernel
theorem check_e25 : checkEntry tables acceptTab (Program.defs .parse_alter_schema_statement) e25 = true := by decide +kernel
theorem check_e46 : checkEntry tables acceptTab (Program.defs .parse_begin_statement) e46 = true := by decide +kernel
theorem check_e48 : checkEntry tables acceptTab (Program.defs .parse_load_statement) e48 = true := by decide +kernel
theorem check_e50 : checkEntry tables acceptTab (Program.defs .parse_repeat_statement) e50 = true := by decide +kernel
theorem check_e52 : checkEntry tables acceptTab (Program.defs .parse_for_statement) e52 = true := by decide +kernel
theorem check_e54 : checkEntry tables acceptTab (Program.defs .parse_single_token_statement) e54 = true := by decide +kernel
theorem check_e56 : checkEntry tables acceptTab (Program.defs .parse_assert_satement) e56 = true := by decide +kernel
theorem check_e57 : checkEntry tables acceptTab (Program.defs .parse_export_data_statement) e57 = true := by decide +kernel
theorem check_e62 : checkEntry tables acceptTab (Program.defs .parse_from_statement) e62 = true := by decide +kernel
theorem check_e64 : checkEntry tables acceptTab (Program.defs .parse_insert_statement) e64 = true := by decide +kernel
theorem check_e67 : checkEntry tables acceptTab (Program.defs .parse_truncate_statement) e67 = true := by decide +kernel
theorem check_e84 : checkEntry tables acceptTab (Program.defs .parse_alter_column_statement) e84 = true := by decide +kernel
theorem check_e86 : checkEntry tables acceptTab (Program.defs .parse_alter_vector_index_statement) e86 = true := by decide +kernel
theorem check_e88 : checkEntry tables acceptTab (Program.defs .parse_alter_project_statement) e88 = true := by decide +kernel
theorem check_e90 : checkEntry tables acceptTab (Program.defs .parse_alter_reservation_statement) e90 = true := by decide +kernel
theorem check_e92 : checkEntry tables acceptTab (Program.defs .parse_alter_model_statement) e92 = true := by decide +kernel
theorem check_e94 : checkEntry tables acceptTab (Program.defs .parse_drop_statement_general) e94 = true := by decide +kernel
theorem check_e96 : checkEntry tables acceptTab (Program.defs .parse_grant_statement) e96 = true := by decide +kernel
theorem check_e98 : checkEntry tables acceptTab (Program.defs .parse_declare_statement) e98 = true := by decide +kernel
theorem check_e100 : checkEntry tables acceptTab (Program.defs .parse_execute_statement) e100 = true := by decide +kernel
theorem check_e102 : checkEntry tables acceptTab (Program.defs .parse_transaction_statement) e102 = true := by decide +kernel
theorem check_e119 : checkEntry tables acceptTab (Program.defs .parse_select_statement) e119 = true := by decide +kernel
theorem check_e120 : checkEntry tables acceptTab (Program.defs .parse_with_clause) e120 = true := by decide +kernel
theorem check_e123 : checkEntry tables acceptTab (Program.defs .parse_exprs) e123 = true := by decide +kernel
theorem check_e126 : checkEntry tables acceptTab (Program.defs .parse_table) e126 = true := by decide +kernel
theorem check_e129 : checkEntry tables acceptTab (Program.defs .parse_n_keywords) e129 = true := by decide +kernel
theorem check_e133 : checkEntry tables acceptTab (Program.defs .parse_expr) e133 = true := by decide +kernel
theorem check_e134 : checkEntry tables acceptTab (Program.defs .parse_n_keywords) e134 = true := by decide +kernel
theorem check_e140 : checkEntry tables acceptTab (Program.defs .parse_keyword_with_statements) e140 = true := by decide +kernel
theorem check_e147 : checkEntry tables acceptTab (Program.defs .parse_expr) e147 = true := by decide +kernel
theorem check_e148 : checkEntry tables acceptTab (Program.defs .parse_select_statement) e148 = true := by decide +kernel
theorem check_e156 : checkEntry tables acceptTab (Program.defs .parse_type) e156 = true := by decide +kernel
theorem check_e158 : checkEntry tables acceptTab (Program.defs .parse_type) e158 = true := by decide +kernel
theorem check_e160 : checkEntry tables acceptTab (Program.defs .parse_expr) e160 = true := by decide +kernel
theorem check_e162 : checkEntry tables acceptTab (Program.defs .parse_expr) e162 = true := by decide +kernel
theorem check_e168 : checkEntry tables acceptTab (Program.defs .parse_expr) e168 = true := by decide +kernel
theorem check_e172 : checkEntry tables acceptTab (Program.defs .parse_binary_operator) e172 = true := by decide +kernel
theorem check_e173 : checkEntry tables acceptTab (Program.defs .parse_binary_operator) e173 = true := by decide +kernel
theorem check_e174 : checkEntry tables acceptTab (Program.defs .parse_is_distinct_from_operator) e174 = true := by decide +kernel
theorem check_e178 : checkEntry tables acceptTab (Program.defs .parse_in_operator) e178 = true := by decide +kernel
theorem check_e181 : checkEntry tables acceptTab (Program.defs .parse_keyword_with_statements) e181 = true := by decide +kernel
theorem check_e182 : checkEntry tables acceptTab (Program.defs .parse_n_keywords) e182 = true := by decide +kernel
theorem check_e186 : checkEntry tables acceptTab (Program.defs .parse_statement) e186 = true := by decide +kernel
theorem check_e189 : checkEntry tables acceptTab (Program.defs .parse_grouped_exprs) e189 = true := by decide +kernel
theorem check_e194 : checkEntry tables acceptTab (Program.defs .parse_expr) e194 = true := by decide +kernel
theorem check_e195 : checkEntry tables acceptTab (Program.defs .parse_expr) e195 = true := by decide +kernel
theorem check_e209 : checkEntry tables acceptTab (Program.defs .parse_set_operator) e209 = true := by decide +kernel
theorem check_e217 : checkEntry tables acceptTab (Program.defs .parse_pivot_config_clause) e217 = true := by decide +kernel
theorem check_e224 : checkEntry tables acceptTab (Program.defs .parse_grouped_type_declaration_or_constraints) e224 = true := by decide +kernel
theorem check_e225 : checkEntry tables acceptTab (Program.defs .parse_xxxby_exprs) e225 = true := by decide +kernel
theorem check_e233 : checkEntry tables acceptTab (Program.defs .parse_cte) e233 = true := by decide +kernel
theorem check_e251 : checkEntry tables acceptTab (Program.defs .parse_expr) e251 = true := by decide +kernel
theorem check_e252 : checkEntry tables acceptTab (Program.defs .parse_base_pipe_operator) e252 = true := by decide +kernel
theorem check_e255 : checkEntry tables acceptTab (Program.defs .parse_limit_pipe_operator) e255 = true := by decide +kernel
theorem check_e260 : checkEntry tables acceptTab (Program.defs .parse_tablesample_pipe_operator) e260 = true := by decide +kernel
theorem check_e264 : checkEntry tables acceptTab (Program.defs .parse_match_recognize_pipe_operator) e264 = true := by decide +kernel
theorem check_e268 : checkEntry tables acceptTab (Program.defs .parse_corresponding_clause) e268 = true := by decide +kernel
theorem check_e273 : checkEntry tables acceptTab (Program.defs .parse_table) e273 = true := by decide +kernel
theorem check_e275 : checkEntry tables acceptTab (Program.defs .parse_window_clause) e275 = true := by decide +kernel
theorem check_e281 : checkEntry tables acceptTab (Program.defs .parse_single_or_multi_token_identifier) e281 = true := by decide +kernel
theorem check_e284 : checkEntry tables acceptTab (Program.defs .parse_type) e284 = true := by decide +kernel
theorem check_e285 : checkEntry tables acceptTab (Program.defs .parse_n_keywords) e285 = true := by decide +kernel
theorem check_e292 : checkEntry tables acceptTab (Program.defs .parse_type) e292 = true := by decide +kernel
theorem check_e296 : checkEntry tables acceptTab (Program.defs .parse_expr) e296 = true := by decide +kernel
theorem check_e298 : checkEntry tables acceptTab (Program.defs .parse_insert_statement) e298 = true := by decide +kernel
theorem check_e300 : checkEntry tables acceptTab (Program.defs .parse_keyword_with_grouped_exprs) e300 = true := by decide +kernel
theorem check_e304 : checkEntry tables acceptTab (Program.defs .parse_binary_operator) e304 = true := by decide +kernel
theorem check_e307 : checkEntry tables acceptTab (Program.defs .parse_exprs) e307 = true := by decide +kernel
theorem check_e309 : checkEntry tables acceptTab (Program.defs .parse_exprs) e309 = true := by decide +kernel
theorem check_e310 : checkEntry tables acceptTab (Program.defs .parse_exprs) e310 = true := by decide +kernel
theorem check_e311 : checkEntry tables acceptTab (Program.defs .parse_exprs) e311 = true := by decide +kernel
theorem check_e314 : checkEntry tables acceptTab (Program.defs .parse_n_keywords) e314 = true := by decide +kernel
theorem check_e320 : checkEntry tables acceptTab (Program.defs .parse_exprs) e320 = true := by decide +kernel
theorem check_e330 : checkEntry tables acceptTab (Program.defs .parse_pattern) e330 = true := by decide +kernel
theorem check_e333 : checkEntry tables acceptTab (Program.defs .parse_expr) e333 = true := by decide +kernel
theorem check_e334 : checkEntry tables acceptTab (Program.defs .parse_expr) e334 = true := by decide +kernel

end Verif.GI
