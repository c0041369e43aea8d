# Summaries to be inferred: function, known arguments, tokens before the call, `!` what must not follow.
parse_expr: (MAX f f f t) ID '=>' Expr
parse_expr: (MAX f f f t) ID ! Tail ORD '.' '[' '(' '=>' ';' ID IN ']' ON FROM THEN ELSE
parse_expr: (MAX f f f t) NotUnary Tail OrdOpt ! Tail ORD
parse_expr: (200 f f f t) NotUnary Tail OrdOpt ! Tail ORD
parse_expr: (101 f f f t) '(' Expr ')' ! Tail ORD '.' '['
parse_expr: (<112 f f f t) Unary Tail ! Tail ORD '.'
parse_expr: (<112 f f f t) Unary Tail OrdOpt ! Tail ORD '.'
parse_expr: (<112 f f f t) B/R/BR/RB STR Tail ! Tail ORD '.'
parse_expr: (<112 f f f t) B/R/BR/RB STR Tail OrdOpt ! Tail ORD '.'
parse_expr: (<109 f f f t) B/R/BR/RB STR TailB ! ORD '.'
parse_expr: (102 f f f t) ID '(' CallArgs ')' OverOpt Post ! ORD Tail
parse_expr: (MAX f f f t) Unary Tail OrdOpt ! Tail ORD
parse_expr: (109 f f f t) Unary TailB ! ORD
parse_expr: (<109 f f f t) Unary TailB ! ORD
parse_expr: (<112 f f f t) NotUnary Tail ! Tail ORD
parse_expr: (<112 f f f t) NotUnary Tail OrdOpt ! Tail ORD
parse_expr: (101 f _ t t) ID ! ORD NOT
parse_expr: (101 f _ t t) WORD ! ORD NOT
parse_expr: (101 f _ t t) WORD Post Tail ! Tail ORD
parse_expr: (101 f _ t t) WORD Post Tail OrdOpt ! Tail ORD
parse_expr: (2 f t f t) TableName
parse_expr: (MAX f t f t) TvfName '(' TableArgsOpt ')'
parse_expr: (MAX f t f t) TvfName '(' ExprList ')' Enforced
parse_expr: (MAX f t f t) TvfName '(' ExprList ')' EnforcedOpt ! NOT
parse_expr: (MAX f t f t) TableName ! '('
parse_expr: (MAX f f f t) UNNEST '(' Expr ')'
parse_expr: (MAX f f f t) USING '(' ExprList ')'
parse_expr: (102 f f f t) UNNEST '(' Expr ')' ! ORD NOT
parse_expr: (102 f f f t) UNNEST '(' Expr ')' Tail ! Tail ORD
parse_expr: (102 f f f t) UNNEST '(' Expr ')' Tail OrdOpt ! Tail ORD
parse_expr: (MAX t f f _) ID AS Expr ! Tail ORD '.' '['
parse_expr: (MAX t f f _) Expr AS NAME
parse_expr: (MAX t f f t) Expr OrdOpt ! AS ID ORD Tail '.' '['
parse_expr: (MAX t f f t) Expr AliasOpt ! AS ORD Tail '.' '['
parse_expr: (MAX t f f t) NAME Post AliasOpt ! AS
parse_expr: (MAX t f f t) SelectItem ! ORD
parse_expr: (MAX f f f f) NAME
parse_expr: (MAX f f f t) QueryN
parse_expr: (MAX f f f t) SelPipeN
parse_expr: (MAX f f f t) '*' StarModOpt
parse_expr: (MAX f f f t) '*'
parse_expr: (MAX f f f t) TABLE TableName
parse_expr: (MAX f f f t) MODEL TableName
parse_exprs: ExprList ! ORD Tail '.' '['
parse_exprs: SetItems ! ',' Tail '.' '['
parse_exprs: ValueList ! ',' Tail '.' '['
parse_exprs: OrderItems
parse_exprs: Args
parse_exprs: (_ t t) AliasedList
parse_exprs: QueryN
parse_exprs: SelPipeN
parse_exprs: (_ t t) SelectList ',' ! Unary '*' NOT
parse_exprs: (_ t t) SelectList
parse_exprs: TableArgs
parse_exprs: '*'
parse_between_operator: BETWEEN Unary TailB AND Unary Tail ! Tail ORD
parse_between_operator: BETWEEN Unary TailB AND Unary Tail OrdOpt ! Tail ORD
parse_binary_operator: ArithOp Unary Tail ! Tail ORD
parse_binary_operator: ArithOp Unary Tail OrdOpt ! Tail ORD
parse_binary_operator: ArithOp Unary TailB
parse_binary_operator: CompOp Unary Tail ! Tail ORD
parse_binary_operator: CompOp Unary Tail OrdOpt ! Tail ORD
parse_binary_operator: LogicOp NotUnary Tail ! Tail ORD
parse_binary_operator: LogicOp NotUnary Tail OrdOpt ! Tail ORD
parse_binary_operator: IS NotOpt IsWhat Tail ! Tail ORD
parse_binary_operator: IS NotOpt IsWhat Tail OrdOpt ! Tail ORD
parse_binary_operator: LIKE Unary Tail ! Tail ORD
parse_binary_operator: LIKE Unary Tail OrdOpt ! Tail ORD
parse_binary_operator: '=>' Expr
parse_is_distinct_from_operator: IS NotOpt DISTINCT FROM Unary Tail ! Tail ORD
parse_is_distinct_from_operator: IS NotOpt DISTINCT FROM Unary Tail OrdOpt ! Tail ORD
parse_in_operator: IN '(' ExprList ')'
parse_in_operator: IN '(' InQueryE ')'
parse_in_operator: IN UNNEST '(' Expr ')' ! ORD NOT
parse_in_operator: IN UNNEST '(' Expr ')' Tail ! Tail ORD
parse_in_operator: IN UNNEST '(' Expr ')' Tail OrdOpt ! Tail ORD
parse_grouped_exprs: '(' ExprList ')'
parse_grouped_exprs: '(' AliasedList ')'
parse_cte: Cte ','
parse_cte: TRAINING_DATA AS '(' InQuery ')' ','
parse_cte: ID AS '(' InQuery ')'
parse_cte: Cte
parse_with_clause: With
parse_window_expr: WindowSpec
parse_window_clause: Window
parse_xxxby_exprs: OrderBy
parse_xxxby_exprs: PartitionBy
parse_groupby_exprs: GroupBy
parse_n_keywords: ROLLUP
parse_n_keywords: CUBE
parse_n_keywords: ALL ROW ACCESS POLICIES
parse_n_keywords: ALL
parse_n_keywords: GROUPING SETS
parse_type: (t f) SchemaType ColumnRest ! '>' OPTIONS NOT COLLATE
parse_type: (t f) STRUCT '<' SchemaFields '>' FieldRest
parse_type: (t f) ARRAY '<' SchemaType FieldRest '>' FieldRest
parse_type: (t f) SchemaType FieldRest ! OPTIONS NOT COLLATE
parse_type: STRUCT '<' FieldList '>'
parse_type: ARRAY '<' Type '>'
parse_type: (f f) Type ColumnCollateOpt
parse_type: Type ! '('
parse_type: STRUCT
parse_type: ARRAY
parse_identifier: TvfName ! '.'
parse_identifier: TableName ! '.'
parse_single_or_multi_token_identifier: ID
parse_single_or_multi_token_identifier: WORD
parse_by_name_clause: BY NAME ON '(' ExprList ')'
parse_by_name_clause: BY NAME
parse_corresponding_clause: STRICT Corresponding
parse_corresponding_clause: Corresponding
parse_set_operator: SetOp SelQ
parse_set_operator: SetOp '(' InQuery ')'
parse_table: (t) TableName SystemTime ! JOIN INNER CROSS LEFT RIGHT FULL ',' TABLESAMPLE
parse_table: (t) TableName AliasOpt ! JOIN INNER CROSS LEFT RIGHT FULL ',' TABLESAMPLE FOR
parse_table: (t) TableExpr
parse_table: (t) TableExprN
parse_table: (f) TablePrim
parse_table_sample_ratio: '(' Expr PERCENT ')'
push_trailing_alias: ANY Alias
push_trailing_alias: ANY AliasOpt ! AS ID
parse_select_statement: (f f) SelectOnly SelMethod
parse_select_statement: (f f) SelectCore SelRest ! EXCEPT INNER FULL LEFT OUTER
parse_select_statement: (f f) SelectFrom SelExcept
parse_select_statement: (f f) '(' InQuery ')'
parse_select_statement: (t t) SelPipe ';'
parse_select_statement: (t t) SelPipe
parse_select_statement: (t t) ParPipe ';'
parse_select_statement: (t t) ParPipe
parse_select_statement: (t t) SelHeadN Pipes ';'
parse_select_statement: (t t) SelHeadN Pipes
parse_select_statement: (t t) Query ';'
parse_select_statement: (t t) Query
parse_select_statement: (f t) '(' InQuery ')' ! ORDER LIMIT UNION INTERSECT EXCEPT ')' ';'
parse_select_statement: (f t) SelPipe ';'
parse_select_statement: (f t) ParPipe ';'
parse_select_statement: (f t) SelHeadN Pipes ';'
parse_select_statement: (f t) SelPipe ! ';'
parse_select_statement: (f t) SelPipeN ! ';'
parse_select_statement: (f t) WithPipe ! ';'
parse_select_statement: (f t) ParPipe ! ';'
parse_select_statement: (f t) SelHeadN Pipes ! ';'
parse_select_statement: (f t) Query
parse_select_statement: (t t) QueryBody ';'
parse_select_statement: (t t) QueryBody
parse_select_statement: (f t) QueryBody
parse_select_statement: (f t) QueryN
parse_keyword_with_grouped_exprs: Options
parse_keyword_with_grouped_exprs: Storing
parse_keyword_with_grouped_exprs: Transform
parse_grouped_exprs: '(' ')'
parse_grouped_exprs: '(' ValueList ')'
parse_grouped_exprs: '(' SelectList ')'
parse_with_connection_clause: Connection
parse_xxxby_exprs: ClusterBy
parse_n_keywords: OR REPLACE
parse_n_keywords: IF NOT EXISTS
parse_n_keywords: IF EXISTS
parse_n_keywords: ROW ACCESS POLICY
parse_n_keywords: NOT DETERMINISTIC
parse_n_keywords: DETERMINISTIC
parse_n_keywords: PARTITION COLUMNS
parse_n_keywords: DATA TYPE
parse_n_keywords: DROP DEFAULT
parse_n_keywords: DROP NOT NULL
parse_n_keywords: END REPEAT
parse_n_keywords: END FOR
parse_n_keywords: END CASE
parse_grouped_type_declaration_or_constraints: (t f) PlainColumns
parse_grouped_type_declaration_or_constraints: (f f) PlainColumns
parse_grouped_type_declaration_or_constraints: Columns
parse_grouped_type_declaration_or_constraints: Parameters
parse_grouped_type_declaration_or_constraints: ProcParameters
parse_type: (f t) ParamType NotAggregateOpt
parse_type: ParamType
parse_type: ReturnType
parse_constraint: TableConstraint
parse_enforced: Enforced
parse_keyword_with_statements: THEN Block
parse_keyword_with_statements: ELSE Block
parse_keyword_with_statements: LOOP Block
parse_keyword_with_statements: REPEAT Block
parse_keyword_with_statements: DO Block
parse_expr: (MAX f f f t) DEFAULT
parse_expr: (<112 f f f t) DEFAULT
parse_expr: (MAX f f f t) NAME Post '=' DEFAULT
parse_binary_operator: '=' DEFAULT
parse_update_statement: (f) UPDATE SET SetItems
parse_insert_statement: (f) INSERT MergeInput
parse_insert_statement: (f) INSERT '(' ExprList ')' MergeInput
parse_begin_statement: (f) BeginBlock
parse_alter_column_statement: (f) AlterColumn
parse_insert_statement: (t) PipeInsert ';'
parse_insert_statement: (t) PipeInsert
parse_insert_statement: (t) Insert ';'
parse_insert_statement: (t) Insert
parse_delete_statement: (t) Delete ';'
parse_delete_statement: (t) Delete
parse_truncate_statement: (t) Truncate ';'
parse_truncate_statement: (t) Truncate
parse_update_statement: (t) Update ';'
parse_update_statement: (t) Update
parse_merge_statement: (t) Merge ';'
parse_merge_statement: (t) Merge
parse_create_schema_statement: (t) CreateSchema ';'
parse_create_schema_statement: (t) CreateSchema
parse_create_search_index_statement: (t) CreateIndex ';'
parse_create_search_index_statement: (t) CreateIndex
parse_create_table_statement: (t) PipeTable ';'
parse_create_table_statement: (t) PipeTable
parse_create_table_statement: (t) CreateTable ';'
parse_create_table_statement: (t) CreateTable
parse_create_view_statement: (t) PipeView ';'
parse_create_view_statement: (t) PipeView
parse_create_view_statement: (t) CreateView ';'
parse_create_view_statement: (t) CreateView
parse_create_function_statement: (t) PipeFunction ';'
parse_create_function_statement: (t) PipeFunction
parse_create_function_statement: (t) CreateFunction ';'
parse_create_function_statement: (t) CreateFunction
parse_create_procedure_statement: (t) CreateProcedure ';'
parse_create_procedure_statement: (t) CreateProcedure
parse_create_row_access_policy_statement: (t) CreatePolicy ';'
parse_create_row_access_policy_statement: (t) CreatePolicy
parse_create_model_statement: (t) CreateModel ';'
parse_create_model_statement: (t) CreateModel
parse_create_reservation_statement: (t) CreateReservation ';'
parse_create_reservation_statement: (t) CreateReservation
parse_alter_schema_statement: (t) AlterSchema ';'
parse_alter_schema_statement: (t) AlterSchema
parse_alter_table_statement: (t) AlterTable ';'
parse_alter_table_statement: (t) AlterTable
parse_alter_column_statement: (t) AlterColumn ';'
parse_alter_column_statement: (t) AlterColumn
parse_alter_view_statement: (t) AlterView ';'
parse_alter_view_statement: (t) AlterView
parse_alter_vector_index_statement: (t) AlterIndex ';'
parse_alter_vector_index_statement: (t) AlterIndex
parse_drop_row_access_policy_statement: (t) DropPolicy ';'
parse_drop_row_access_policy_statement: (t) DropPolicy
parse_undrop_statement: (t) Undrop ';'
parse_undrop_statement: (t) Undrop
parse_grant_statement: (t) Grant ';'
parse_grant_statement: (t) Grant
parse_revoke_statement: (t) Revoke ';'
parse_revoke_statement: (t) Revoke
parse_declare_statement: (t) Declare ';'
parse_declare_statement: (t) Declare
parse_set_statement: (t) Set ';'
parse_set_statement: (t) Set
parse_execute_statement: (t) Execute ';'
parse_execute_statement: (t) Execute
parse_begin_statement: (t) Begin ';'
parse_begin_statement: (t) Begin
parse_if_statement: (t) If ';'
parse_if_statement: (t) If
parse_case_statement: (t) Case ';'
parse_case_statement: (t) Case
parse_loop_statement: (t) Loop ';'
parse_loop_statement: (t) Loop
parse_repeat_statement: (t) Repeat ';'
parse_repeat_statement: (t) Repeat
parse_while_statement: (t) While ';'
parse_while_statement: (t) While
parse_for_statement: (t) For ';'
parse_for_statement: (t) For
parse_transaction_statement: (t) Transaction ';'
parse_transaction_statement: (t) Transaction
parse_raise_statement: (t) Raise ';'
parse_raise_statement: (t) Raise
parse_call_statement: (t) Call ';'
parse_call_statement: (t) Call
parse_export_data_statement: (t) PipeExport ';'
parse_export_data_statement: (t) PipeExport
parse_export_data_statement: (t) ExportData ';'
parse_export_data_statement: (t) ExportData
parse_export_model_statement: (t) ExportModel ';'
parse_export_model_statement: (t) ExportModel
parse_load_statement: (t) Load ';'
parse_load_statement: (t) Load
parse_assert_satement: (t) Assert ';'
parse_assert_satement: (t) Assert
parse_drop_statement_general: (t) Drop ';'
parse_drop_statement_general: (t) Drop
parse_single_token_statement: (t) RETURN ';'
parse_single_token_statement: (t) RETURN
parse_break_continue_statement: (t) Jump ';'
parse_alter_organization_statement: (t) ALTER ORGANIZATION SET Options ';'
parse_alter_organization_statement: (t) ALTER ORGANIZATION SET Options
parse_alter_project_statement: (t) ALTER PROJECT TableNameOpt SET Options ';'
parse_alter_project_statement: (t) ALTER PROJECT TableNameOpt SET Options
parse_alter_bicapacity_statement: (t) ALTER BI_CAPACITY TableName SET Options ';'
parse_alter_bicapacity_statement: (t) ALTER BI_CAPACITY TableName SET Options
parse_alter_reservation_statement: (t) ALTER CAPACITY TableName SET Options ';'
parse_alter_reservation_statement: (t) ALTER CAPACITY TableName SET Options
parse_alter_reservation_statement: (t) ALTER RESERVATION TableName SET Options ';'
parse_alter_reservation_statement: (t) ALTER RESERVATION TableName SET Options
parse_alter_model_statement: (t) ALTER MODEL IfExistsOpt TableName SET Options ';'
parse_alter_model_statement: (t) ALTER MODEL IfExistsOpt TableName SET Options
parse_statement: (t) PlainStep ';'
parse_statement: (t) Step ';'
parse_statement: (t) Statement
parse_statement: (f) Query
parse_pivot_config_clause: PivotConfig
parse_keyword_with_grouped_exprs: PivotIn
parse_unpivot_config_clause: UnpivotConfig
parse_match_recognize_clause: MatchRecognize
parse_match_recognize_config: MatchConfig
parse_pattern_clause: PATTERN PatternGroup ! '?' '+' '*' '{'
parse_pattern: PatternGroup ! '?' '+' '*' '{'
parse_pattern: PatternUnit ! '?' '+' '*' '{'
parse_grouped_pattern: PatternGroup
parse_exprs: NamedExprs
parse_exprs: Definitions ! Tail ORD '.' '['
parse_expr: (MAX f f f f) Expr ! Tail '.' '['
parse_n_keywords: (2) UnpivotNulls
parse_n_keywords: (2) INCLUDE/EXCLUDE NULLS
parse_expr: (MAX f f f t) STR/NUM ! Tail ORD '.' '['
parse_from_statement: FromHead Pipes ';'
parse_from_statement: FromHead Pipes ! ';'
parse_from_statement: FromHead ';'
parse_from_statement: FromHead ! ';' '|>'
parse_pipe_statement: Pipes ';'
parse_pipe_statement: Pipes ! ';'
parse_base_pipe_operator: (f) PipeWord AliasedList
parse_base_pipe_operator: (t) ORDER BY OrderItems
parse_select_pipe_operator: SELECT SelModOpt SelAsOpt SelectList WindowOpt
parse_aggregate_pipe_operator: AGGREGATE AliasedList PipeGroupByOpt
parse_union_pipe_operator: SetOp PipeInputs
parse_join_pipe_operator: PipeJoin
parse_limit_pipe_operator: LIMIT Expr OFFSET Expr ! Tail ORD '.' '['
parse_limit_pipe_operator: LIMIT Expr ! Tail ORD '.' '[' OFFSET
parse_tablesample_pipe_operator: Sample
parse_pivot_pipe_operator: Pivot
parse_unpivot_pipe_operator: Unpivot
parse_match_recognize_pipe_operator: MatchRecognize
parse_with_pipe_operator: With
parse_table: (t) TableExprP
parse_table: (f) TablePrimP
parse_groupby_exprs: PipeGroupBy
parse_exprs: PipeInputs
parse_statement: (f) SelPipe ';'
parse_statement: (f) SelPipe ! ';'
parse_exprs: (_ t t) WithArgs
