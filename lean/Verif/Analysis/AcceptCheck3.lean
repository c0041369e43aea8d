import Verif.Analysis.AcceptTable
import Verif.Model.Program
/-! Generated by tools/genacceptcheck.py: the kernel checks the summaries of Verif.Analysis.AcceptTable. -/
set_option maxRecDepth 100000
namespace Verif.GI

theorem check_e0 : checkEntry tables acceptTab (Program.defs .parse_statement) e0 = true := by decide +kernel
theorem check_e5 : checkEntry tables acceptTab (Program.defs .parse_from_statement) e5 = true := by decide +kernel
theorem check_e7 : checkEntry tables acceptTab (Program.defs .parse_insert_statement) e7 = true := by decide +kernel
theorem check_e10 : checkEntry tables acceptTab (Program.defs .parse_truncate_statement) e10 = true := by decide +kernel
theorem check_e27 : checkEntry tables acceptTab (Program.defs .parse_alter_column_statement) e27 = true := by decide +kernel
theorem check_e29 : checkEntry tables acceptTab (Program.defs .parse_alter_vector_index_statement) e29 = true := by decide +kernel
theorem check_e31 : checkEntry tables acceptTab (Program.defs .parse_alter_project_statement) e31 = true := by decide +kernel
theorem check_e33 : checkEntry tables acceptTab (Program.defs .parse_alter_reservation_statement) e33 = true := by decide +kernel
theorem check_e35 : checkEntry tables acceptTab (Program.defs .parse_alter_model_statement) e35 = true := by decide +kernel
theorem check_e37 : checkEntry tables acceptTab (Program.defs .parse_drop_statement_general) e37 = true := by decide +kernel
theorem check_e39 : checkEntry tables acceptTab (Program.defs .parse_grant_statement) e39 = true := by decide +kernel
theorem check_e41 : checkEntry tables acceptTab (Program.defs .parse_declare_statement) e41 = true := by decide +kernel
theorem check_e43 : checkEntry tables acceptTab (Program.defs .parse_execute_statement) e43 = true := by decide +kernel
theorem check_e45 : checkEntry tables acceptTab (Program.defs .parse_transaction_statement) e45 = true := by decide +kernel
theorem check_e60 : checkEntry tables acceptTab (Program.defs .parse_select_statement) e60 = true := by decide +kernel
theorem check_e69 : checkEntry tables acceptTab (Program.defs .parse_merge_statement) e69 = true := by decide +kernel
theorem check_e72 : checkEntry tables acceptTab (Program.defs .parse_create_function_statement) e72 = true := by decide +kernel
theorem check_e74 : checkEntry tables acceptTab (Program.defs .parse_create_table_statement) e74 = true := by decide +kernel
theorem check_e76 : checkEntry tables acceptTab (Program.defs .parse_create_view_statement) e76 = true := by decide +kernel
theorem check_e77 : checkEntry tables acceptTab (Program.defs .parse_create_procedure_statement) e77 = true := by decide +kernel
theorem check_e79 : checkEntry tables acceptTab (Program.defs .parse_create_reservation_statement) e79 = true := by decide +kernel
theorem check_e81 : checkEntry tables acceptTab (Program.defs .parse_create_model_statement) e81 = true := by decide +kernel
theorem check_e83 : checkEntry tables acceptTab (Program.defs .parse_alter_table_statement) e83 = true := by decide +kernel
theorem check_e104 : checkEntry tables acceptTab (Program.defs .parse_case_statement) e104 = true := by decide +kernel
theorem check_e106 : checkEntry tables acceptTab (Program.defs .parse_loop_statement) e106 = true := by decide +kernel
theorem check_e108 : checkEntry tables acceptTab (Program.defs .parse_while_statement) e108 = true := by decide +kernel
theorem check_e111 : checkEntry tables acceptTab (Program.defs .parse_raise_statement) e111 = true := by decide +kernel
theorem check_e113 : checkEntry tables acceptTab (Program.defs .parse_call_statement) e113 = true := by decide +kernel
theorem check_e116 : checkEntry tables acceptTab (Program.defs .parse_export_data_statement) e116 = true := by decide +kernel
theorem check_e117 : checkEntry tables acceptTab (Program.defs .parse_export_model_statement) e117 = true := by decide +kernel
theorem check_e121 : checkEntry tables acceptTab (Program.defs .parse_keyword_with_grouped_exprs) e121 = true := by decide +kernel
theorem check_e122 : checkEntry tables acceptTab (Program.defs .parse_exprs) e122 = true := by decide +kernel
theorem check_e128 : checkEntry tables acceptTab (Program.defs .parse_n_keywords) e128 = true := by decide +kernel
theorem check_e135 : checkEntry tables acceptTab (Program.defs .parse_n_keywords) e135 = true := by decide +kernel
theorem check_e136 : checkEntry tables acceptTab (Program.defs .parse_n_keywords) e136 = true := by decide +kernel
theorem check_e138 : checkEntry tables acceptTab (Program.defs .parse_keyword_with_statements) e138 = true := by decide +kernel
theorem check_e141 : checkEntry tables acceptTab (Program.defs .parse_select_statement) e141 = true := by decide +kernel
theorem check_e145 : checkEntry tables acceptTab (Program.defs .parse_grouped_exprs) e145 = true := by decide +kernel
theorem check_e149 : checkEntry tables acceptTab (Program.defs .parse_table) e149 = true := by decide +kernel
theorem check_e151 : checkEntry tables acceptTab (Program.defs .parse_expr) e151 = true := by decide +kernel
theorem check_e153 : checkEntry tables acceptTab (Program.defs .parse_single_or_multi_token_identifier) e153 = true := by decide +kernel
theorem check_e155 : checkEntry tables acceptTab (Program.defs .parse_exprs) e155 = true := by decide +kernel
theorem check_e159 : checkEntry tables acceptTab (Program.defs .parse_type) e159 = true := by decide +kernel
theorem check_e163 : checkEntry tables acceptTab (Program.defs .parse_exprs) e163 = true := by decide +kernel
theorem check_e166 : checkEntry tables acceptTab (Program.defs .parse_exprs) e166 = true := by decide +kernel
theorem check_e167 : checkEntry tables acceptTab (Program.defs .parse_window_expr) e167 = true := by decide +kernel
theorem check_e169 : checkEntry tables acceptTab (Program.defs .parse_expr) e169 = true := by decide +kernel
theorem check_e180 : checkEntry tables acceptTab (Program.defs .parse_exprs) e180 = true := by decide +kernel
theorem check_e183 : checkEntry tables acceptTab (Program.defs .parse_keyword_with_statements) e183 = true := by decide +kernel
theorem check_e191 : checkEntry tables acceptTab (Program.defs .parse_expr) e191 = true := by decide +kernel
theorem check_e193 : checkEntry tables acceptTab (Program.defs .parse_exprs) e193 = true := by decide +kernel
theorem check_e199 : checkEntry tables acceptTab (Program.defs .parse_binary_operator) e199 = true := by decide +kernel
theorem check_e203 : checkEntry tables acceptTab (Program.defs .parse_binary_operator) e203 = true := by decide +kernel
theorem check_e204 : checkEntry tables acceptTab (Program.defs .parse_between_operator) e204 = true := by decide +kernel
theorem check_e205 : checkEntry tables acceptTab (Program.defs .parse_in_operator) e205 = true := by decide +kernel
theorem check_e206 : checkEntry tables acceptTab (Program.defs .parse_expr) e206 = true := by decide +kernel
theorem check_e210 : checkEntry tables acceptTab (Program.defs .parse_set_operator) e210 = true := by decide +kernel
theorem check_e213 : checkEntry tables acceptTab (Program.defs .parse_select_statement) e213 = true := by decide +kernel
theorem check_e218 : checkEntry tables acceptTab (Program.defs .parse_n_keywords) e218 = true := by decide +kernel
theorem check_e219 : checkEntry tables acceptTab (Program.defs .parse_unpivot_config_clause) e219 = true := by decide +kernel
theorem check_e221 : checkEntry tables acceptTab (Program.defs .parse_identifier) e221 = true := by decide +kernel
theorem check_e223 : checkEntry tables acceptTab (Program.defs .parse_grouped_type_declaration_or_constraints) e223 = true := by decide +kernel
theorem check_e226 : checkEntry tables acceptTab (Program.defs .parse_xxxby_exprs) e226 = true := by decide +kernel
theorem check_e245 : checkEntry tables acceptTab (Program.defs .parse_expr) e245 = true := by decide +kernel
theorem check_e246 : checkEntry tables acceptTab (Program.defs .parse_expr) e246 = true := by decide +kernel
theorem check_e253 : checkEntry tables acceptTab (Program.defs .parse_base_pipe_operator) e253 = true := by decide +kernel
theorem check_e257 : checkEntry tables acceptTab (Program.defs .parse_aggregate_pipe_operator) e257 = true := by decide +kernel
theorem check_e261 : checkEntry tables acceptTab (Program.defs .parse_pivot_pipe_operator) e261 = true := by decide +kernel
theorem check_e266 : checkEntry tables acceptTab (Program.defs .parse_by_name_clause) e266 = true := by decide +kernel
theorem check_e270 : checkEntry tables acceptTab (Program.defs .parse_select_statement) e270 = true := by decide +kernel
theorem check_e272 : checkEntry tables acceptTab (Program.defs .parse_table_sample_ratio) e272 = true := by decide +kernel
theorem check_e277 : checkEntry tables acceptTab (Program.defs .parse_exprs) e277 = true := by decide +kernel
theorem check_e280 : checkEntry tables acceptTab (Program.defs .parse_match_recognize_config) e280 = true := by decide +kernel
theorem check_e286 : checkEntry tables acceptTab (Program.defs .parse_n_keywords) e286 = true := by decide +kernel
theorem check_e290 : checkEntry tables acceptTab (Program.defs .parse_cte) e290 = true := by decide +kernel
theorem check_e291 : checkEntry tables acceptTab (Program.defs .parse_type) e291 = true := by decide +kernel
theorem check_e299 : checkEntry tables acceptTab (Program.defs .parse_insert_statement) e299 = true := by decide +kernel
theorem check_e301 : checkEntry tables acceptTab (Program.defs .parse_binary_operator) e301 = true := by decide +kernel
theorem check_e317 : checkEntry tables acceptTab (Program.defs .parse_expr) e317 = true := by decide +kernel
theorem check_e323 : checkEntry tables acceptTab (Program.defs .parse_type) e323 = true := by decide +kernel
theorem check_e326 : checkEntry tables acceptTab (Program.defs .parse_expr) e326 = true := by decide +kernel
theorem check_e329 : checkEntry tables acceptTab (Program.defs .parse_expr) e329 = true := by decide +kernel
theorem check_e331 : checkEntry tables acceptTab (Program.defs .parse_expr) e331 = true := by decide +kernel
theorem check_e336 : checkEntry tables acceptTab (Program.defs .parse_expr) e336 = true := by decide +kernel
theorem check_e337 : checkEntry tables acceptTab (Program.defs .parse_pattern) e337 = true := by decide +kernel

end Verif.GI
