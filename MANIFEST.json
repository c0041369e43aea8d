{
 "claims": [
  {
   "property": "C01",
   "status": "proved",
   "theorems": [
    "Verif.Props.C01_tokenize_lossless"
   ],
   "note": ""
  },
  {
   "property": "C02",
   "status": "proved",
   "theorems": [
    "Verif.Props.C02_token_positions",
    "Verif.Props.C02_positions_increase"
   ],
   "note": ""
  },
  {
   "property": "C03",
   "status": "proved",
   "theorems": [
    "Verif.Props.C03_eof_token_last"
   ],
   "note": ""
  },
  {
   "property": "C04",
   "status": "proved",
   "theorems": [
    "Verif.Props.C04_tokenize_terminates",
    "Verif.Props.C04_tokenize_count"
   ],
   "note": ""
  },
  {
   "property": "C05",
   "status": "proved",
   "theorems": [
    "Verif.Props.C05_tokenize_panics_iff"
   ],
   "note": "The panic is a defect of the code; the theorem says exactly when it happens."
  },
  {
   "property": "C06",
   "status": "proved",
   "theorems": [
    "Verif.Props.C06_error_positions"
   ],
   "note": ""
  },
  {
   "property": "C07",
   "status": "proved",
   "theorems": [
    "Verif.Props.C07_string_extent",
    "Verif.Props.C07_string_complete"
   ],
   "note": ""
  },
  {
   "property": "C08",
   "status": "proved",
   "theorems": [
    "Verif.Props.C08_line_comment_extent",
    "Verif.Props.C08_block_comment_extent"
   ],
   "note": ""
  },
  {
   "property": "C09",
   "status": "proved",
   "theorems": [
    "Verif.Props.C09_leading_whitespace",
    "Verif.Props.C09_trailing_whitespace",
    "Verif.Props.C09_gap"
   ],
   "note": "Needs the Unicode law that no alphabetic character is white space."
  },
  {
   "property": "C10",
   "status": "proved",
   "theorems": [
    "Verif.Props.C10_angle_brackets"
   ],
   "note": ""
  },
  {
   "property": "C11",
   "status": "proved",
   "theorems": [
    "Verif.Props.C11_compositional"
   ],
   "note": "Needs the Unicode law that no alphabetic character is white space."
  },
  {
   "property": "C12",
   "status": "proved",
   "theorems": [
    "Verif.Props.C12_parse_terminates",
    "Verif.Props.C12_parse_bounds"
   ],
   "note": ""
  },
  {
   "property": "C13",
   "status": "proved",
   "theorems": [
    "Verif.Props.C13_eof_node"
   ],
   "note": ""
  },
  {
   "property": "C14",
   "status": "proved",
   "theorems": [
    "Verif.Props.C14_no_invented_tokens",
    "Verif.Props.C14_no_duplicated_tokens"
   ],
   "note": ""
  },
  {
   "property": "C15",
   "status": "proved",
   "theorems": [
    "Verif.Props.C15_lossless_except",
    "Verif.Props.C15_only_enforcement_lost",
    "Verif.Props.C15_loss_exists"
   ],
   "note": "Losslessness without exceptions is false of the code; C15_loss_exists gives a witness for every excepted case."
  },
  {
   "property": "C16",
   "status": "proved",
   "theorems": [
    "Verif.Props.C16_comment_attachment"
   ],
   "note": ""
  },
  {
   "property": "C17",
   "status": "proved",
   "theorems": [
    "Verif.Props.C17_parse_panics",
    "Verif.Props.C17_panics_exist"
   ],
   "note": "The panics are defects of the code."
  },
  {
   "property": "C18",
   "status": "proved",
   "theorems": [
    "Verif.Props.C18_case_insensitive",
    "Verif.Props.C18_case_insensitive_code"
   ],
   "note": "Needs the Unicode law that ASCII letters have their usual upper case."
  },
  {
   "property": "C19",
   "status": "proved",
   "theorems": [
    "Verif.Props.C19_comments_ignored",
    "Verif.Props.C19_comments_ignored_code",
    "Verif.Props.C19_comments_blanked",
    "Verif.Props.C19_comment_before_bracket"
   ],
   "note": "For texts the unrestricted statement is false of the code; C19_comment_before_bracket is the counterexample."
  },
  {
   "property": "C20",
   "status": "proved",
   "theorems": [
    "Verif.Props.C20_relocation",
    "Verif.Props.C20_respacing"
   ],
   "note": "Needs the Unicode law that ASCII letters have their usual upper case."
  },
  {
   "property": "C21",
   "status": "proved",
   "theorems": [
    "Verif.Props.C21_children_declared",
    "Verif.Props.C21_exceptions_real"
   ],
   "note": "Conformance without exceptions is false of the code; C21_exceptions_real shows that every listed exception is needed."
  },
  {
   "property": "C22",
   "status": "proved",
   "theorems": [
    "Verif.Props.C22_by_precedence",
    "Verif.Props.C22_operators_known",
    "Verif.Props.C22_right_operand",
    "Verif.Props.C22_left_operand"
   ],
   "note": "Spec/Precedence.lean has the tables and says what grouping by precedence means; nothing is claimed about the right-hand side of a dot, which is not an operand."
  },
  {
   "property": "C23",
   "status": "proved",
   "theorems": [
    "Verif.Props.C23_parse_error_position"
   ],
   "note": ""
  },
  {
   "property": "C24",
   "status": "proved",
   "theorems": [
    "Verif.Props.C24_statement_slices"
   ],
   "note": ""
  },
  {
   "property": "C25",
   "status": "proved",
   "theorems": [
    "Verif.Props.C25_separators"
   ],
   "note": ""
  },
  {
   "property": "C26",
   "status": "proved",
   "theorems": [
    "Verif.Props.C26_literals"
   ],
   "note": ""
  },
  {
   "property": "C27",
   "status": "proved",
   "theorems": [
    "Verif.Props.C27_identifier_classification"
   ],
   "note": ""
  },
  {
   "property": "C28",
   "status": "proved",
   "theorems": [
    "Verif.Props.C28_number_extent",
    "Verif.Props.C28_numeric_classification"
   ],
   "note": ""
  },
  {
   "property": "C29",
   "status": "proved",
   "theorems": [
    "Verif.Props.C29_tokenizer_failures"
   ],
   "note": ""
  },
  {
   "property": "C30",
   "status": "proved",
   "theorems": [
    "Verif.Props.C30_comment_only"
   ],
   "note": ""
  },
  {
   "property": "C31",
   "status": "proved",
   "theorems": [
    "Verif.Props.C31_unique_keys"
   ],
   "note": ""
  },
  {
   "property": "C32",
   "status": "proved",
   "theorems": [
    "Verif.Props.C32_display",
    "Verif.Props.C32_display_any"
   ],
   "note": ""
  },
  {
   "property": "C33",
   "status": "proved",
   "theorems": [
    "Verif.Props.C33_tokens"
   ],
   "note": ""
  },
  {
   "property": "C34",
   "status": "proved",
   "theorems": [
    "Verif.Props.C34_mandatory_children",
    "Verif.Props.C34_exceptions_real"
   ],
   "note": "Without exceptions this is false of the code; C34_exceptions_real shows that every listed exception is needed."
  },
  {
   "property": "C35",
   "status": "proved",
   "theorems": [
    "Verif.Props.C35_types_of_children",
    "Verif.Props.C35_exceptions_real"
   ],
   "note": "Without exceptions this is false of the code; C35_exceptions_real shows that every listed exception is needed."
  },
  {
   "property": "C36",
   "status": "proved",
   "theorems": [
    "Verif.Props.C36_source_order",
    "Verif.Props.C36_source_order_exact",
    "Verif.Props.C36_parts_in_order",
    "Verif.Props.C36_arrays_in_order",
    "Verif.Props.C36_subtrees_contiguous",
    "Verif.Props.C36_all_parts_listed",
    "Verif.Props.C36_exceptions_exist"
   ],
   "note": "The order of the parts of each node type is listed in Spec/SourceOrder.lean; pairs of parts that can stand in either order are listed there as swappable, and C36_exceptions_exist gives inputs with both orders for three of them."
  },
  {
   "property": "C37",
   "status": "proved",
   "theorems": [
    "Verif.Props.C37_accepts",
    "Verif.Props.C37_rejected"
   ],
   "note": "The grammar is a specification of its own (Spec/Grammar.lean, generated from tools/grammar.bnf); it covers part of GoogleSQL. C37_rejected lists statements of GoogleSQL which the code rejects."
  },
  {
   "property": "C38",
   "status": "proved",
   "theorems": [
    "Verif.Props.C38_roles"
   ],
   "note": "The table Spec/Roles.lean is generated by the analysis that infers it and is part of the statement; Verif.Proofs.RoleMasks ties it to the masks that the kernel checks."
  },
  {
   "property": "C39",
   "status": "proved",
   "theorems": [
    "Verif.Props.C39_parse_value",
    "Verif.Props.C39_value_determines_trees",
    "Verif.Props.C39_errors_and_tokens",
    "Verif.Props.C39_typescript"
   ],
   "note": "The code that serde derives and serde-wasm-bindgen are not in the repository; the model of the serializer (Model/Serialize.lean) follows the documentation of serde."
  },
  {
   "property": "C40",
   "status": "proved",
   "theorems": [
    "Verif.Props.C40_messages_true",
    "Verif.Props.C40_messages_distinct",
    "Verif.Props.C40_messages_never",
    "Verif.Props.C40_tokenizer_messages"
   ],
   "note": "How characters of a shown literal are escaped (Debug of str) is a parameter. Nothing is claimed about the token of `The statement is not properly labeled`. Messages are read as listed in Spec/Message.lean: some accept more words than they name."
  },
  {
   "property": "C41",
   "status": "proved",
   "theorems": [
    "Verif.Props.C41_statements_independent",
    "Verif.Props.C41_limits"
   ],
   "note": "For the statements of the grammar of C37. C41_limits shows that accepted statements outside of it can take what follows their semicolon."
  },
  {
   "property": "C42",
   "status": "proved",
   "theorems": [
    "Verif.Props.C42_concatenation"
   ],
   "note": "For the statements of the grammar of C37 with all type brackets closed; texts are shorter than the limit of the platform."
  },
  {
   "property": "C43",
   "status": "proved",
   "theorems": [
    "Verif.Props.C43_tokens_exact",
    "Verif.Props.C43_unambiguous",
    "Verif.Props.C43_character_classes"
   ],
   "note": "Spec/Lexeme.lean lists the kinds of tokens. Positions of the tokens are C02."
  },
  {
   "property": "C44",
   "status": "proved",
   "theorems": [
    "Verif.Props.C44_ends_or_stuck",
    "Verif.Props.C44_error_exact",
    "Verif.Props.C44_stuck_starts"
   ],
   "note": "With C05 (the panic) and C43, the outcome of tokenize is determined for every text."
  },
  {
   "property": "C45",
   "status": "proved",
   "theorems": [
    "Verif.Props.C45_statement_types",
    "Verif.Props.C45_words_determine_type",
    "Verif.Props.C45_label_without_colon"
   ],
   "note": "Spec/Kind.lean has the tables. C45_label_without_colon shows an input on which the code takes a word for the colon after a label."
  },
  {
   "property": "C46",
   "status": "proved",
   "theorems": [
    "Verif.Props.C46_reparse",
    "Verif.Props.C46_render_tokens"
   ],
   "note": "The exceptions are those of C15."
  },
  {
   "property": "C47",
   "status": "proved",
   "theorems": [
    "Verif.Props.C47_work_bound",
    "Verif.Props.C47_linear",
    "Verif.Props.C47_exponential"
   ],
   "note": "Looking at a token and constructing a node are not counted."
  },
  {
   "property": "C48",
   "status": "proved",
   "theorems": [
    "Verif.Props.C48_trees_determined",
    "Verif.Props.C48_every_script",
    "Verif.Props.C48_two_operators",
    "Verif.Props.C48_direction_of_operand",
    "Verif.Props.C48_order_of_last_query"
   ],
   "note": "For the operators, the atoms, the subqueries and the statements listed in Spec/Expr.lean; ASC and DESC only after expressions that do not end with an operand (C48_direction_of_operand shows what the code does with the others); no ORDER BY or LIMIT behind UNION and INTERSECT (C48_order_of_last_query shows what the code does with them); names there are none of the words the parser knows, words are in upper case (C18 is about other spellings) and there are no comments (C19 is about those)."
  },
  {
   "property": "C49",
   "status": "proved",
   "theorems": [
    "Verif.Props.C49_blocks_determined",
    "Verif.Props.C49_every_script"
   ],
   "note": "For the blocks listed in Spec/Block.lean with the statements and expressions of Spec/Expr.lean; the restrictions of C48 on names, words and comments hold here too. Labels of LOOP, REPEAT and WHILE are covered, labels of BEGIN and FOR are not."
  }
 ]
}
