import Verif.Analysis.AcceptTable
import Verif.Model.Program
/-! Generated by tools/genacceptcheck.py: the kernel checks the summaries of Verif.Analysis.AcceptTable. -/
set_option maxRecDepth 100000
namespace Verif.GI

theorem check_e2 : checkEntry tables acceptTab (Program.defs .parse_statement) e2 = true := by decide +kernel
theorem check_e6 : checkEntry tables acceptTab (Program.defs .parse_from_statement) e6 = true := by decide +kernel
theorem check_e8 : checkEntry tables acceptTab (Program.defs .parse_insert_statement) e8 = true := by decide +kernel
theorem check_e9 : checkEntry tables acceptTab (Program.defs .parse_delete_statement) e9 = true := by decide +kernel
theorem check_e28 : checkEntry tables acceptTab (Program.defs .parse_alter_view_statement) e28 = true := by decide +kernel
theorem check_e30 : checkEntry tables acceptTab (Program.defs .parse_alter_organization_statement) e30 = true := by decide +kernel
theorem check_e32 : checkEntry tables acceptTab (Program.defs .parse_alter_bicapacity_statement) e32 = true := by decide +kernel
theorem check_e34 : checkEntry tables acceptTab (Program.defs .parse_alter_reservation_statement) e34 = true := by decide +kernel
theorem check_e36 : checkEntry tables acceptTab (Program.defs .parse_drop_row_access_policy_statement) e36 = true := by decide +kernel
theorem check_e38 : checkEntry tables acceptTab (Program.defs .parse_undrop_statement) e38 = true := by decide +kernel
theorem check_e40 : checkEntry tables acceptTab (Program.defs .parse_revoke_statement) e40 = true := by decide +kernel
theorem check_e42 : checkEntry tables acceptTab (Program.defs .parse_set_statement) e42 = true := by decide +kernel
theorem check_e44 : checkEntry tables acceptTab (Program.defs .parse_if_statement) e44 = true := by decide +kernel
theorem check_e61 : checkEntry tables acceptTab (Program.defs .parse_select_statement) e61 = true := by decide +kernel
theorem check_e68 : checkEntry tables acceptTab (Program.defs .parse_update_statement) e68 = true := by decide +kernel
theorem check_e70 : checkEntry tables acceptTab (Program.defs .parse_create_schema_statement) e70 = true := by decide +kernel
theorem check_e71 : checkEntry tables acceptTab (Program.defs .parse_create_function_statement) e71 = true := by decide +kernel
theorem check_e73 : checkEntry tables acceptTab (Program.defs .parse_create_table_statement) e73 = true := by decide +kernel
theorem check_e75 : checkEntry tables acceptTab (Program.defs .parse_create_view_statement) e75 = true := by decide +kernel
theorem check_e78 : checkEntry tables acceptTab (Program.defs .parse_create_row_access_policy_statement) e78 = true := by decide +kernel
theorem check_e80 : checkEntry tables acceptTab (Program.defs .parse_create_search_index_statement) e80 = true := by decide +kernel
theorem check_e82 : checkEntry tables acceptTab (Program.defs .parse_alter_schema_statement) e82 = true := by decide +kernel
theorem check_e103 : checkEntry tables acceptTab (Program.defs .parse_begin_statement) e103 = true := by decide +kernel
theorem check_e105 : checkEntry tables acceptTab (Program.defs .parse_load_statement) e105 = true := by decide +kernel
theorem check_e107 : checkEntry tables acceptTab (Program.defs .parse_repeat_statement) e107 = true := by decide +kernel
theorem check_e109 : checkEntry tables acceptTab (Program.defs .parse_break_continue_statement) e109 = true := by decide +kernel
theorem check_e110 : checkEntry tables acceptTab (Program.defs .parse_for_statement) e110 = true := by decide +kernel
theorem check_e112 : checkEntry tables acceptTab (Program.defs .parse_single_token_statement) e112 = true := by decide +kernel
theorem check_e114 : checkEntry tables acceptTab (Program.defs .parse_assert_satement) e114 = true := by decide +kernel
theorem check_e115 : checkEntry tables acceptTab (Program.defs .parse_export_data_statement) e115 = true := by decide +kernel
theorem check_e118 : checkEntry tables acceptTab (Program.defs .parse_select_statement) e118 = true := by decide +kernel
theorem check_e124 : checkEntry tables acceptTab (Program.defs .parse_table) e124 = true := by decide +kernel
theorem check_e127 : checkEntry tables acceptTab (Program.defs .parse_table) e127 = true := by decide +kernel
theorem check_e130 : checkEntry tables acceptTab (Program.defs .parse_n_keywords) e130 = true := by decide +kernel
theorem check_e132 : checkEntry tables acceptTab (Program.defs .parse_n_keywords) e132 = true := by decide +kernel
theorem check_e137 : checkEntry tables acceptTab (Program.defs .parse_exprs) e137 = true := by decide +kernel
theorem check_e139 : checkEntry tables acceptTab (Program.defs .parse_keyword_with_statements) e139 = true := by decide +kernel
theorem check_e143 : checkEntry tables acceptTab (Program.defs .parse_cte) e143 = true := by decide +kernel
theorem check_e146 : checkEntry tables acceptTab (Program.defs .parse_grouped_exprs) e146 = true := by decide +kernel
theorem check_e157 : checkEntry tables acceptTab (Program.defs .parse_type) e157 = true := by decide +kernel
theorem check_e164 : checkEntry tables acceptTab (Program.defs .parse_exprs) e164 = true := by decide +kernel
theorem check_e170 : checkEntry tables acceptTab (Program.defs .parse_binary_operator) e170 = true := by decide +kernel
theorem check_e177 : checkEntry tables acceptTab (Program.defs .parse_in_operator) e177 = true := by decide +kernel
theorem check_e187 : checkEntry tables acceptTab (Program.defs .parse_statement) e187 = true := by decide +kernel
theorem check_e190 : checkEntry tables acceptTab (Program.defs .parse_expr) e190 = true := by decide +kernel
theorem check_e192 : checkEntry tables acceptTab (Program.defs .parse_expr) e192 = true := by decide +kernel
theorem check_e196 : checkEntry tables acceptTab (Program.defs .parse_expr) e196 = true := by decide +kernel
theorem check_e200 : checkEntry tables acceptTab (Program.defs .parse_binary_operator) e200 = true := by decide +kernel
theorem check_e201 : checkEntry tables acceptTab (Program.defs .parse_binary_operator) e201 = true := by decide +kernel
theorem check_e202 : checkEntry tables acceptTab (Program.defs .parse_is_distinct_from_operator) e202 = true := by decide +kernel
theorem check_e207 : checkEntry tables acceptTab (Program.defs .parse_xxxby_exprs) e207 = true := by decide +kernel
theorem check_e208 : checkEntry tables acceptTab (Program.defs .parse_pipe_statement) e208 = true := by decide +kernel
theorem check_e214 : checkEntry tables acceptTab (Program.defs .parse_select_statement) e214 = true := by decide +kernel
theorem check_e216 : checkEntry tables acceptTab (Program.defs .push_trailing_alias) e216 = true := by decide +kernel
theorem check_e231 : checkEntry tables acceptTab (Program.defs .parse_keyword_with_grouped_exprs) e231 = true := by decide +kernel
theorem check_e232 : checkEntry tables acceptTab (Program.defs .parse_grouped_type_declaration_or_constraints) e232 = true := by decide +kernel
theorem check_e235 : checkEntry tables acceptTab (Program.defs .parse_constraint) e235 = true := by decide +kernel
theorem check_e236 : checkEntry tables acceptTab (Program.defs .parse_alter_column_statement) e236 = true := by decide +kernel
theorem check_e240 : checkEntry tables acceptTab (Program.defs .parse_expr) e240 = true := by decide +kernel
theorem check_e242 : checkEntry tables acceptTab (Program.defs .parse_exprs) e242 = true := by decide +kernel
theorem check_e243 : checkEntry tables acceptTab (Program.defs .parse_expr) e243 = true := by decide +kernel
theorem check_e248 : checkEntry tables acceptTab (Program.defs .parse_n_keywords) e248 = true := by decide +kernel
theorem check_e250 : checkEntry tables acceptTab (Program.defs .parse_expr) e250 = true := by decide +kernel
theorem check_e256 : checkEntry tables acceptTab (Program.defs .parse_limit_pipe_operator) e256 = true := by decide +kernel
theorem check_e259 : checkEntry tables acceptTab (Program.defs .parse_join_pipe_operator) e259 = true := by decide +kernel
theorem check_e263 : checkEntry tables acceptTab (Program.defs .parse_with_pipe_operator) e263 = true := by decide +kernel
theorem check_e267 : checkEntry tables acceptTab (Program.defs .parse_corresponding_clause) e267 = true := by decide +kernel
theorem check_e269 : checkEntry tables acceptTab (Program.defs .parse_select_statement) e269 = true := by decide +kernel
theorem check_e278 : checkEntry tables acceptTab (Program.defs .parse_expr) e278 = true := by decide +kernel
theorem check_e279 : checkEntry tables acceptTab (Program.defs .parse_expr) e279 = true := by decide +kernel
theorem check_e287 : checkEntry tables acceptTab (Program.defs .parse_type) e287 = true := by decide +kernel
theorem check_e289 : checkEntry tables acceptTab (Program.defs .parse_grouped_exprs) e289 = true := by decide +kernel
theorem check_e293 : checkEntry tables acceptTab (Program.defs .parse_type) e293 = true := by decide +kernel
theorem check_e295 : checkEntry tables acceptTab (Program.defs .parse_expr) e295 = true := by decide +kernel
theorem check_e303 : checkEntry tables acceptTab (Program.defs .parse_expr) e303 = true := by decide +kernel
theorem check_e306 : checkEntry tables acceptTab (Program.defs .parse_exprs) e306 = true := by decide +kernel
theorem check_e308 : checkEntry tables acceptTab (Program.defs .parse_exprs) e308 = true := by decide +kernel
theorem check_e312 : checkEntry tables acceptTab (Program.defs .parse_expr) e312 = true := by decide +kernel
theorem check_e313 : checkEntry tables acceptTab (Program.defs .parse_n_keywords) e313 = true := by decide +kernel
theorem check_e315 : checkEntry tables acceptTab (Program.defs .parse_n_keywords) e315 = true := by decide +kernel
theorem check_e319 : checkEntry tables acceptTab (Program.defs .parse_pattern_clause) e319 = true := by decide +kernel
theorem check_e321 : checkEntry tables acceptTab (Program.defs .parse_expr) e321 = true := by decide +kernel
theorem check_e322 : checkEntry tables acceptTab (Program.defs .parse_type) e322 = true := by decide +kernel
theorem check_e327 : checkEntry tables acceptTab (Program.defs .parse_groupby_exprs) e327 = true := by decide +kernel
theorem check_e338 : checkEntry tables acceptTab (Program.defs .parse_exprs) e338 = true := by decide +kernel

end Verif.GI
