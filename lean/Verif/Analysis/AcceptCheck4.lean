import Verif.Analysis.AcceptTable
import Verif.Model.Program
/-! Generated by tools/genacceptcheck.py: the kernel checks the summaries of Verif.Analysis.AcceptTable. -/
set_option maxRecDepth 100000
namespace Verif.GI

theorem check_e3 : checkEntry tables acceptTab (Program.defs .parse_select_statement) e3 = true := by decide +kernel
theorem check_e12 : checkEntry tables acceptTab (Program.defs .parse_merge_statement) e12 = true := by decide +kernel
theorem check_e15 : checkEntry tables acceptTab (Program.defs .parse_create_function_statement) e15 = true := by decide +kernel
theorem check_e17 : checkEntry tables acceptTab (Program.defs .parse_create_table_statement) e17 = true := by decide +kernel
theorem check_e19 : checkEntry tables acceptTab (Program.defs .parse_create_view_statement) e19 = true := by decide +kernel
theorem check_e20 : checkEntry tables acceptTab (Program.defs .parse_create_procedure_statement) e20 = true := by decide +kernel
theorem check_e22 : checkEntry tables acceptTab (Program.defs .parse_create_reservation_statement) e22 = true := by decide +kernel
theorem check_e24 : checkEntry tables acceptTab (Program.defs .parse_create_model_statement) e24 = true := by decide +kernel
theorem check_e26 : checkEntry tables acceptTab (Program.defs .parse_alter_table_statement) e26 = true := by decide +kernel
theorem check_e47 : checkEntry tables acceptTab (Program.defs .parse_case_statement) e47 = true := by decide +kernel
theorem check_e49 : checkEntry tables acceptTab (Program.defs .parse_loop_statement) e49 = true := by decide +kernel
theorem check_e51 : checkEntry tables acceptTab (Program.defs .parse_while_statement) e51 = true := by decide +kernel
theorem check_e53 : checkEntry tables acceptTab (Program.defs .parse_raise_statement) e53 = true := by decide +kernel
theorem check_e55 : checkEntry tables acceptTab (Program.defs .parse_call_statement) e55 = true := by decide +kernel
theorem check_e58 : checkEntry tables acceptTab (Program.defs .parse_export_data_statement) e58 = true := by decide +kernel
theorem check_e59 : checkEntry tables acceptTab (Program.defs .parse_export_model_statement) e59 = true := by decide +kernel
theorem check_e63 : checkEntry tables acceptTab (Program.defs .parse_from_statement) e63 = true := by decide +kernel
theorem check_e65 : checkEntry tables acceptTab (Program.defs .parse_insert_statement) e65 = true := by decide +kernel
theorem check_e66 : checkEntry tables acceptTab (Program.defs .parse_delete_statement) e66 = true := by decide +kernel
theorem check_e85 : checkEntry tables acceptTab (Program.defs .parse_alter_view_statement) e85 = true := by decide +kernel
theorem check_e87 : checkEntry tables acceptTab (Program.defs .parse_alter_organization_statement) e87 = true := by decide +kernel
theorem check_e89 : checkEntry tables acceptTab (Program.defs .parse_alter_bicapacity_statement) e89 = true := by decide +kernel
theorem check_e91 : checkEntry tables acceptTab (Program.defs .parse_alter_reservation_statement) e91 = true := by decide +kernel
theorem check_e93 : checkEntry tables acceptTab (Program.defs .parse_drop_row_access_policy_statement) e93 = true := by decide +kernel
theorem check_e95 : checkEntry tables acceptTab (Program.defs .parse_undrop_statement) e95 = true := by decide +kernel
theorem check_e97 : checkEntry tables acceptTab (Program.defs .parse_revoke_statement) e97 = true := by decide +kernel
theorem check_e99 : checkEntry tables acceptTab (Program.defs .parse_set_statement) e99 = true := by decide +kernel
theorem check_e101 : checkEntry tables acceptTab (Program.defs .parse_if_statement) e101 = true := by decide +kernel
theorem check_e125 : checkEntry tables acceptTab (Program.defs .parse_identifier) e125 = true := by decide +kernel
theorem check_e131 : checkEntry tables acceptTab (Program.defs .parse_n_keywords) e131 = true := by decide +kernel
theorem check_e142 : checkEntry tables acceptTab (Program.defs .parse_with_connection_clause) e142 = true := by decide +kernel
theorem check_e144 : checkEntry tables acceptTab (Program.defs .parse_cte) e144 = true := by decide +kernel
theorem check_e150 : checkEntry tables acceptTab (Program.defs .parse_expr) e150 = true := by decide +kernel
theorem check_e152 : checkEntry tables acceptTab (Program.defs .parse_expr) e152 = true := by decide +kernel
theorem check_e154 : checkEntry tables acceptTab (Program.defs .parse_type) e154 = true := by decide +kernel
theorem check_e161 : checkEntry tables acceptTab (Program.defs .parse_expr) e161 = true := by decide +kernel
theorem check_e165 : checkEntry tables acceptTab (Program.defs .parse_exprs) e165 = true := by decide +kernel
theorem check_e171 : checkEntry tables acceptTab (Program.defs .parse_binary_operator) e171 = true := by decide +kernel
theorem check_e175 : checkEntry tables acceptTab (Program.defs .parse_binary_operator) e175 = true := by decide +kernel
theorem check_e176 : checkEntry tables acceptTab (Program.defs .parse_between_operator) e176 = true := by decide +kernel
theorem check_e179 : checkEntry tables acceptTab (Program.defs .parse_in_operator) e179 = true := by decide +kernel
theorem check_e184 : checkEntry tables acceptTab (Program.defs .parse_n_keywords) e184 = true := by decide +kernel
theorem check_e185 : checkEntry tables acceptTab (Program.defs .parse_statement) e185 = true := by decide +kernel
theorem check_e188 : checkEntry tables acceptTab (Program.defs .parse_exprs) e188 = true := by decide +kernel
theorem check_e197 : checkEntry tables acceptTab (Program.defs .parse_expr) e197 = true := by decide +kernel
theorem check_e198 : checkEntry tables acceptTab (Program.defs .parse_binary_operator) e198 = true := by decide +kernel
theorem check_e211 : checkEntry tables acceptTab (Program.defs .parse_pipe_statement) e211 = true := by decide +kernel
theorem check_e212 : checkEntry tables acceptTab (Program.defs .parse_select_statement) e212 = true := by decide +kernel
theorem check_e215 : checkEntry tables acceptTab (Program.defs .push_trailing_alias) e215 = true := by decide +kernel
theorem check_e220 : checkEntry tables acceptTab (Program.defs .parse_match_recognize_clause) e220 = true := by decide +kernel
theorem check_e222 : checkEntry tables acceptTab (Program.defs .parse_grouped_exprs) e222 = true := by decide +kernel
theorem check_e227 : checkEntry tables acceptTab (Program.defs .parse_n_keywords) e227 = true := by decide +kernel
theorem check_e228 : checkEntry tables acceptTab (Program.defs .parse_table) e228 = true := by decide +kernel
theorem check_e229 : checkEntry tables acceptTab (Program.defs .parse_grouped_type_declaration_or_constraints) e229 = true := by decide +kernel
theorem check_e230 : checkEntry tables acceptTab (Program.defs .parse_keyword_with_grouped_exprs) e230 = true := by decide +kernel
theorem check_e234 : checkEntry tables acceptTab (Program.defs .parse_type) e234 = true := by decide +kernel
theorem check_e237 : checkEntry tables acceptTab (Program.defs .parse_expr) e237 = true := by decide +kernel
theorem check_e238 : checkEntry tables acceptTab (Program.defs .parse_select_statement) e238 = true := by decide +kernel
theorem check_e239 : checkEntry tables acceptTab (Program.defs .parse_expr) e239 = true := by decide +kernel
theorem check_e241 : checkEntry tables acceptTab (Program.defs .parse_expr) e241 = true := by decide +kernel
theorem check_e244 : checkEntry tables acceptTab (Program.defs .parse_expr) e244 = true := by decide +kernel
theorem check_e247 : checkEntry tables acceptTab (Program.defs .parse_keyword_with_statements) e247 = true := by decide +kernel
theorem check_e249 : checkEntry tables acceptTab (Program.defs .parse_exprs) e249 = true := by decide +kernel
theorem check_e254 : checkEntry tables acceptTab (Program.defs .parse_select_pipe_operator) e254 = true := by decide +kernel
theorem check_e258 : checkEntry tables acceptTab (Program.defs .parse_union_pipe_operator) e258 = true := by decide +kernel
theorem check_e262 : checkEntry tables acceptTab (Program.defs .parse_unpivot_pipe_operator) e262 = true := by decide +kernel
theorem check_e265 : checkEntry tables acceptTab (Program.defs .parse_by_name_clause) e265 = true := by decide +kernel
theorem check_e271 : checkEntry tables acceptTab (Program.defs .parse_select_statement) e271 = true := by decide +kernel
theorem check_e274 : checkEntry tables acceptTab (Program.defs .parse_groupby_exprs) e274 = true := by decide +kernel
theorem check_e276 : checkEntry tables acceptTab (Program.defs .parse_table) e276 = true := by decide +kernel
theorem check_e282 : checkEntry tables acceptTab (Program.defs .parse_exprs) e282 = true := by decide +kernel
theorem check_e283 : checkEntry tables acceptTab (Program.defs .parse_type) e283 = true := by decide +kernel
theorem check_e288 : checkEntry tables acceptTab (Program.defs .parse_begin_statement) e288 = true := by decide +kernel
theorem check_e294 : checkEntry tables acceptTab (Program.defs .parse_enforced) e294 = true := by decide +kernel
theorem check_e297 : checkEntry tables acceptTab (Program.defs .parse_update_statement) e297 = true := by decide +kernel
theorem check_e302 : checkEntry tables acceptTab (Program.defs .parse_expr) e302 = true := by decide +kernel
theorem check_e305 : checkEntry tables acceptTab (Program.defs .parse_expr) e305 = true := by decide +kernel
theorem check_e316 : checkEntry tables acceptTab (Program.defs .parse_n_keywords) e316 = true := by decide +kernel
theorem check_e318 : checkEntry tables acceptTab (Program.defs .parse_exprs) e318 = true := by decide +kernel
theorem check_e324 : checkEntry tables acceptTab (Program.defs .parse_type) e324 = true := by decide +kernel
theorem check_e325 : checkEntry tables acceptTab (Program.defs .parse_exprs) e325 = true := by decide +kernel
theorem check_e328 : checkEntry tables acceptTab (Program.defs .parse_binary_operator) e328 = true := by decide +kernel
theorem check_e332 : checkEntry tables acceptTab (Program.defs .parse_expr) e332 = true := by decide +kernel
theorem check_e335 : checkEntry tables acceptTab (Program.defs .parse_grouped_pattern) e335 = true := by decide +kernel
theorem check_e339 : checkEntry tables acceptTab (Program.defs .parse_expr) e339 = true := by decide +kernel

end Verif.GI
