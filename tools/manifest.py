"""Writes MANIFEST.json.  One entry per property: status, theorems, note."""
import json, os
ROOT = os.path.dirname(os.path.dirname(os.path.abspath(__file__)))
P = "Verif.Props."
CLAIMS = {
 "C01": ("proved", ["C01_tokenize_lossless"], ""),
 "C02": ("proved", ["C02_token_positions", "C02_positions_increase"], ""),
 "C03": ("proved", ["C03_eof_token_last"], ""),
 "C04": ("proved", ["C04_tokenize_terminates", "C04_tokenize_count"], ""),
 "C05": ("proved", ["C05_tokenize_panics_iff"], "The panic is a defect of the code; the theorem says exactly when it happens."),
 "C06": ("proved", ["C06_error_positions"], ""),
 "C07": ("proved", ["C07_string_extent", "C07_string_complete"], ""),
 "C08": ("proved", ["C08_line_comment_extent", "C08_block_comment_extent"], ""),
 "C09": ("proved", ["C09_leading_whitespace", "C09_trailing_whitespace", "C09_gap"], "Needs the Unicode law that no alphabetic character is white space."),
 "C10": ("proved", ["C10_angle_brackets"], ""),
 "C11": ("proved", ["C11_compositional"], "Needs the Unicode law that no alphabetic character is white space."),
 "C12": ("proved", ["C12_parse_terminates", "C12_parse_bounds"], ""),
 "C13": ("proved", ["C13_eof_node"], ""),
 "C14": ("proved", ["C14_no_invented_tokens", "C14_no_duplicated_tokens"], ""),
 "C15": ("proved", ["C15_lossless_except", "C15_only_enforcement_lost", "C15_loss_exists"], "Losslessness without exceptions is false of the code; C15_loss_exists gives a witness for every excepted case."),
 "C16": ("proved", ["C16_comment_attachment"], ""),
 "C17": ("proved", ["C17_parse_panics", "C17_panics_exist"], "The panics are defects of the code."),
 "C18": ("proved", ["C18_case_insensitive", "C18_case_insensitive_code"], "Needs the Unicode law that ASCII letters have their usual upper case."),
 "C19": ("proved", ["C19_comments_ignored", "C19_comments_ignored_code", "C19_comments_blanked", "C19_comment_before_bracket"], "For texts the unrestricted statement is false of the code; C19_comment_before_bracket is the counterexample."),
 "C20": ("proved", ["C20_relocation", "C20_respacing"], "Needs the Unicode law that ASCII letters have their usual upper case."),
 "C21": ("proved", ["C21_children_declared", "C21_exceptions_real"], "Conformance without exceptions is false of the code; C21_exceptions_real shows that every listed exception is needed."),
 "C22": ("proved", ["C22_by_precedence", "C22_operators_known", "C22_right_operand", "C22_left_operand"], "Spec/Precedence.lean has the tables and says what grouping by precedence means; nothing is claimed about the right-hand side of a dot, which is not an operand."),
 "C23": ("proved", ["C23_parse_error_position"], ""),
 "C24": ("proved", ["C24_statement_slices"], ""),
 "C25": ("proved", ["C25_separators"], ""),
 "C26": ("proved", ["C26_literals"], ""),
 "C27": ("proved", ["C27_identifier_classification"], ""),
 "C28": ("proved", ["C28_number_extent", "C28_numeric_classification"], ""),
 "C29": ("proved", ["C29_tokenizer_failures"], ""),
 "C30": ("proved", ["C30_comment_only"], ""),
 "C31": ("proved", ["C31_unique_keys"], ""),
 "C32": ("proved", ["C32_display", "C32_display_any"], ""),
 "C33": ("proved", ["C33_tokens"], ""),
 "C34": ("proved", ["C34_mandatory_children", "C34_exceptions_real"], "Without exceptions this is false of the code; C34_exceptions_real shows that every listed exception is needed."),
 "C35": ("proved", ["C35_types_of_children", "C35_exceptions_real"], "Without exceptions this is false of the code; C35_exceptions_real shows that every listed exception is needed."),
 "C36": ("proved", ["C36_source_order", "C36_source_order_exact", "C36_parts_in_order", "C36_arrays_in_order", "C36_subtrees_contiguous", "C36_all_parts_listed", "C36_exceptions_exist"], "The order of the parts of each node type is listed in Spec/SourceOrder.lean; pairs of parts that can stand in either order are listed there as swappable, and C36_exceptions_exist gives inputs with both orders for three of them."),
 "C38": ("proved", ["C38_roles"], "The table Spec/Roles.lean is generated by the analysis that infers it and is part of the statement; Verif.Proofs.RoleMasks ties it to the masks that the kernel checks."),
 "C39": ("proved", ["C39_parse_value", "C39_value_determines_trees", "C39_errors_and_tokens", "C39_typescript"], "The code that serde derives and serde-wasm-bindgen are not in the repository; the model of the serializer (Model/Serialize.lean) follows the documentation of serde."),
 "C40": ("proved", ["C40_messages_true", "C40_messages_distinct", "C40_messages_never", "C40_tokenizer_messages"], "How characters of a shown literal are escaped (Debug of str) is a parameter. Nothing is claimed about the token of `The statement is not properly labeled`. Messages are read as listed in Spec/Message.lean: some accept more words than they name."),
 "C41": ("proved", ["C41_statements_independent", "C41_limits"], "For the statements of the grammar of C37. C41_limits shows that accepted statements outside of it can take what follows their semicolon."),
 "C42": ("proved", ["C42_concatenation"], "For the statements of the grammar of C37 with all type brackets closed; texts are shorter than the limit of the platform."),
 "C43": ("proved", ["C43_tokens_exact", "C43_unambiguous", "C43_character_classes"], "Spec/Lexeme.lean lists the kinds of tokens. Positions of the tokens are C02."),
 "C44": ("proved", ["C44_ends_or_stuck", "C44_error_exact", "C44_stuck_starts"], "With C05 (the panic) and C43, the outcome of tokenize is determined for every text."),
 "C45": ("proved", ["C45_statement_types", "C45_words_determine_type", "C45_label_without_colon"], "Spec/Kind.lean has the tables. C45_label_without_colon shows an input on which the code takes a word for the colon after a label."),
 "C46": ("proved", ["C46_reparse", "C46_render_tokens"], "The exceptions are those of C15."),
 "C47": ("proved", ["C47_work_bound", "C47_linear", "C47_exponential"], "Looking at a token and constructing a node are not counted."),
 "C48": ("proved", ["C48_trees_determined", "C48_every_script", "C48_two_operators", "C48_direction_of_operand", "C48_order_of_last_query"], "For the operators, the atoms, the subqueries and the statements listed in Spec/Expr.lean; ASC and DESC only after expressions that do not end with an operand (C48_direction_of_operand shows what the code does with the others); no ORDER BY or LIMIT behind UNION and INTERSECT (C48_order_of_last_query shows what the code does with them); names there are none of the words the parser knows, words are in upper case (C18 is about other spellings) and there are no comments (C19 is about those)."),
 "C49": ("proved", ["C49_blocks_determined", "C49_every_script"], "For the blocks listed in Spec/Block.lean with the statements and expressions of Spec/Expr.lean; the restrictions of C48 on names, words and comments hold here too. Labels of LOOP, REPEAT and WHILE are covered, labels of BEGIN and FOR are not."),
 "C37": ("proved", ["C37_accepts", "C37_rejected"], "The grammar is a specification of its own (Spec/Grammar.lean, generated from tools/grammar.bnf); it covers part of GoogleSQL. C37_rejected lists statements of GoogleSQL which the code rejects."),
}
def main():
    out = {"claims": [{"property": k, "status": s, "theorems": [P + t for t in ts], "note": n}
                      for k, (s, ts, n) in sorted(CLAIMS.items())]}
    with open(os.path.join(ROOT, "MANIFEST.json"), "w") as f:
        json.dump(out, f, indent=1, ensure_ascii=False)
        f.write("\n")
if __name__ == "__main__":
    main()
