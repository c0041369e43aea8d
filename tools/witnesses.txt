["SELECT 1 FROM UNNEST.a , UNNEST.a", ["CallingUnnest k_func missing", "CallingUnnest k_left node", "CallingUnnest k_right node", "CallingUnnest k_rparen missing", "CallingUnnest k_with_offset missing", "Identifier k_with_offset missing", "JoinOperator k_join_type missing", "JoinOperator k_on missing", "JoinOperator k_outer missing", "JoinOperator k_using missing", "JoinOperator k_with_offset missing"]]
["l: (FROM table) l", ["FromStatement k_with missing", "GroupedStatement k_colon node", "GroupedStatement k_leading_label node", "GroupedStatement k_limit missing", "GroupedStatement k_orderby missing", "GroupedStatement k_trailing_label node", "GroupedStatement k_with_offset missing"]]
["l: CREATE TABLE example (x int64) l", ["CreateTableStatement k_colon node", "CreateTableStatement k_leading_label node", "CreateTableStatement k_like_or_copy missing", "CreateTableStatement k_source_table missing", "CreateTableStatement k_trailing_label node", "TypeDeclaration k_in_out missing"]]
["l: IF TRUE THEN END IF l", ["IfStatement k_colon node", "IfStatement k_else missing", "IfStatement k_elseifs missing", "IfStatement k_leading_label node", "IfStatement k_trailing_label node"]]
["l: CREATE SCHEMA dataset_name l", ["CreateSchemaStatement k_colon node", "CreateSchemaStatement k_default_collate missing", "CreateSchemaStatement k_leading_label node", "CreateSchemaStatement k_trailing_label node"]]
["l: ASSERT 1 + 1 = 3 l", ["AssertStatement k_as missing", "AssertStatement k_colon node", "AssertStatement k_description missing", "AssertStatement k_leading_label node", "AssertStatement k_trailing_label node"]]
["l: DELETE table_name WHERE TRUE l", ["DeleteStatement k_colon node", "DeleteStatement k_from missing", "DeleteStatement k_leading_label node", "DeleteStatement k_trailing_label node"]]
["l: RAISE l", ["RaiseStatement k_colon node", "RaiseStatement k_leading_label node", "RaiseStatement k_trailing_label node"]]
["l: RETURN l", ["SingleTokenStatement k_colon node", "SingleTokenStatement k_leading_label node", "SingleTokenStatement k_trailing_label node"]]
["l: COMMIT l", ["TransactionStatement k_colon node", "TransactionStatement k_leading_label node", "TransactionStatement k_trailing_label node"]]
["l: SELECT SUM(x) OVER ();", ["SelectStatement k_colon node", "SelectStatement k_leading_label node", "WindowSpecification k_frame missing", "WindowSpecification k_orderby missing", "WindowSpecification k_partitionby missing"]]
["SELECT (FROM t ASC NULLS FIRST)", ["GroupedExpr k_with_offset missing", "Unknown k_alias node", "Unknown k_null_order vec", "Unknown k_order node"]]
["l: ALTER COLUMN a DROP DEFAULT l", ["AlterColumnStatement k_colon node", "AlterColumnStatement k_leading_label node", "AlterColumnStatement k_set missing", "AlterColumnStatement k_trailing_label node"]]
["l: BREAK a l", ["BreakContinueStatement k_colon node", "BreakContinueStatement k_leading_label node", "BreakContinueStatement k_trailing_label node"]]
["l: EXECUTE IMMEDIATE 'SELECT 1' l", ["ExecuteStatement k_colon node", "ExecuteStatement k_into missing", "ExecuteStatement k_leading_label node", "ExecuteStatement k_trailing_label node"]]
["l: UPDATE t SET a = 1 l", ["UpdateStatement k_colon node", "UpdateStatement k_leading_label node", "UpdateStatement k_trailing_label node", "UpdateStatement k_where missing"]]
["l: DROP TABLE example l", ["DropStatement k_colon node", "DropStatement k_leading_label node", "DropStatement k_trailing_label node"]]
["l: UNDROP SCHEMA datasetname l", ["UndropStatement k_colon node", "UndropStatement k_leading_label node", "UndropStatement k_trailing_label node"]]
["l: TRUNCATE TABLE t l", ["TruncateStatement k_colon node", "TruncateStatement k_leading_label node", "TruncateStatement k_trailing_label node"]]
["l: EXPORT MODEL ident l", ["ExportModelStatement k_colon node", "ExportModelStatement k_leading_label node", "ExportModelStatement k_trailing_label node"]]
["l: FROM table; l", ["FromStatement k_colon node", "FromStatement k_leading_label node", "FromStatement k_trailing_label node"]]
["l: DECLARE x INT64 l", ["DeclareStatement k_colon node", "DeclareStatement k_leading_label node", "DeclareStatement k_trailing_label node"]]
["l: CALL mydataset.myprocedure(1) l", ["CallStatement k_colon node", "CallStatement k_leading_label node", "CallStatement k_trailing_label node", "DotOperator k_with_offset missing"]]
["SELECT 1 FROM UNNEST NOT BETWEEN 1 AND 2 FOR SYSTEM_TIME AS OF 1", ["CallingUnnest k_and node", "CallingUnnest k_for_system_time_as_of node", "CallingUnnest k_not node", "CallingUnnest k_right_max node", "CallingUnnest k_right_min node"]]
["SELECT 1 FROM f(DISTINCT a IGNORE NULLS ORDER BY a LIMIT 1 HAVING MAX b) OVER w FOR SYSTEM_TIME AS OF 1", ["CallingTableFunction k_distinct node", "CallingTableFunction k_for_system_time_as_of node", "CallingTableFunction k_having node", "CallingTableFunction k_ignore_nulls vec", "CallingTableFunction k_limit node", "CallingTableFunction k_orderby node", "CallingTableFunction k_over node", "CallingTableFunction k_with_offset missing"]]
["l: SET x = 5 l", ["SetStatement k_colon node", "SetStatement k_leading_label node", "SetStatement k_trailing_label node"]]
["CREATE VIEW v(a.b, c-d)", ["CreateViewStatement k_as missing", "IdentWithOptions k_left node", "IdentWithOptions k_right node", "IdentWithOptions k_trailing_idents vec"]]
["l: FROM t |> DISTINCT l", ["PipeStatement k_colon node", "PipeStatement k_leading_label node", "PipeStatement k_trailing_label node"]]
["SELECT 1 FROM UNNEST(DISTINCT a IGNORE NULLS ORDER BY a LIMIT 1 HAVING MAX b) OVER w TABLESAMPLE SYSTEM (1 PERCENT)", ["CallingUnnest k_distinct node", "CallingUnnest k_having node", "CallingUnnest k_ignore_nulls vec", "CallingUnnest k_limit node", "CallingUnnest k_orderby node", "CallingUnnest k_over node", "CallingUnnest k_tablesample node"]]
["l: ALTER SCHEMA dataset_name ADD REPLICA replica_name l", ["AlterSchemaStatement k_colon node", "AlterSchemaStatement k_leading_label node", "AlterSchemaStatement k_trailing_label node"]]
["l: ALTER ORGANIZATION SET OPTIONS() l", ["AlterOrganizationStatement k_colon node", "AlterOrganizationStatement k_leading_label node", "AlterOrganizationStatement k_trailing_label node"]]
["l: CREATE CAPACITY a OPTIONS() l", ["CreateReservationStatement k_colon node", "CreateReservationStatement k_leading_label node", "CreateReservationStatement k_trailing_label node"]]
["l: CREATE OR REPLACE FUNCTION abc() AS (1) l", ["CreateFunctionStatement k_colon node", "CreateFunctionStatement k_leading_label node", "CreateFunctionStatement k_trailing_label node", "GroupedTypeDeclarationOrConstraints k_declarations missing"]]
["l: MERGE t\nUSING s ON t.id = s.id\nWHEN MATCHED THEN DELETE l", ["MergeStatement k_colon node", "MergeStatement k_leading_label node", "MergeStatement k_trailing_label node", "WhenClause k_and missing", "WhenClause k_by_target_or_source missing"]]
["l: ALTER TABLE example\nADD COLUMN x INT64 l", ["AlterTableStatement k_colon node", "AlterTableStatement k_leading_label node", "AlterTableStatement k_trailing_label node"]]
["l: ALTER VECTOR INDEX index_name ON table_name REBUILD l", ["AlterVectorIndexStatement k_colon node", "AlterVectorIndexStatement k_leading_label node", "AlterVectorIndexStatement k_trailing_label node"]]
["l: DROP ROW ACCESS POLICY ident ON tablename l", ["DropRowAccessPolicyStatement k_colon node", "DropRowAccessPolicyStatement k_leading_label node", "DropRowAccessPolicyStatement k_trailing_label node"]]
["l: ALTER MODEL ident SET OPTIONS () l", ["AlterModelStatement k_colon node", "AlterModelStatement k_leading_label node", "AlterModelStatement k_trailing_label node"]]
["l: CASE WHEN true THEN ELSE END CASE l", ["CaseStatement k_colon node", "CaseStatement k_leading_label node", "CaseStatement k_trailing_label node"]]
["l: GRANT a ON SCHEMA b TO c l", ["GrantStatement k_colon node", "GrantStatement k_leading_label node", "GrantStatement k_trailing_label node"]]
["l: REVOKE a ON SCHEMA b FROM c l", ["RevokeStatement k_colon node", "RevokeStatement k_leading_label node", "RevokeStatement k_trailing_label node"]]
["l: ALTER BI_CAPACITY a SET OPTIONS() l", ["AlterBICapacityStatement k_colon node", "AlterBICapacityStatement k_leading_label node", "AlterBICapacityStatement k_trailing_label node"]]
["l: ALTER PROJECT a SET OPTIONS() l", ["AlterProjectStatement k_colon node", "AlterProjectStatement k_leading_label node", "AlterProjectStatement k_trailing_label node"]]
["l: ALTER VIEW a SET OPTIONS() l", ["AlterViewStatement k_colon node", "AlterViewStatement k_leading_label node", "AlterViewStatement k_trailing_label node"]]
["l: ALTER RESERVATION a SET OPTIONS() l", ["AlterReservationStatement k_colon node", "AlterReservationStatement k_leading_label node", "AlterReservationStatement k_trailing_label node"]]
["SELECT * ASC NULLS FIRST", ["Asterisk k_null_order vec", "Asterisk k_order node"]]
["SELECT @a AS 1", ["Parameter k_alias child", "Parameter k_with_offset missing"]]
["l: CREATE MATERIALIZED VIEW ident1\nAS REPLICA OF ident2 l", ["CreateViewStatement k_colon node", "CreateViewStatement k_leading_label node", "CreateViewStatement k_trailing_label node"]]
["l: CREATE MODEL ident\nAS (SELECT 1) l", ["CreateModelStatement k_colon node", "CreateModelStatement k_leading_label node", "CreateModelStatement k_trailing_label node"]]
["l: SELECT 1 INTERSECT DISTINCT (SELECT 2) l", ["SetOperator k_colon node", "SetOperator k_leading_label node", "SetOperator k_trailing_label node"]]
["SELECT {a} AS 1, -a AS 1", ["Template k_alias child", "Template k_with_offset missing", "UnaryOperator k_alias child"]]
["l: LOAD DATA OVERWRITE a FROM FILES () l", ["LoadStatement k_colon node", "LoadStatement k_leading_label node", "LoadStatement k_trailing_label node"]]
["l: INSERT INTO table_name VALUES(1,2) l", ["InsertStatement k_colon node", "InsertStatement k_leading_label node", "InsertStatement k_trailing_label node"]]
["l: CREATE SEARCH INDEX new_index ON tablename(ALL COLUMNS) l", ["CreateIndexStatement k_colon node", "CreateIndexStatement k_leading_label node", "CreateIndexStatement k_trailing_label node"]]
["SELECT EXTRACT(DAY FROM ts)", ["ExtractArgument k_at_time_zone missing", "ExtractArgument k_time_zone missing"]]
["SELECT INTERVAL 1 DAY ASC NULLS FIRST", ["IntervalLiteral k_null_order vec", "IntervalLiteral k_order node"]]
["FROM a + 1 MATCH_RECOGNIZE ()", ["BinaryOperator k_match_recognize node", "MatchRecognizeConfig k_pattern missing"]]
["SELECT (1, WITH a AS (SELECT 1) FROM t x AS x, 2)", ["FromStatement k_alias node", "FromStatement k_as node", "FromStatement k_comma node", "WithQuery k_comma missing"]]
["SELECT (1, SELECT 1 |> DISTINCT AS x, 2)", ["PipeStatement k_alias node", "PipeStatement k_as node", "PipeStatement k_comma node"]]
["FROM t UNPIVOT(a FOR b IN (NULL 1, 1 1, @a 1, RANGE<DATE> '1' 1, 'a' 1, STRUCT() 1, {a} 1, -a 1))", ["NullLiteral k_row_value_alias node", "NumericLiteral k_row_value_alias node", "Parameter k_row_value_alias node", "RangeLiteral k_row_value_alias node", "StringLiteral k_row_value_alias node", "StructLiteral k_row_value_alias node", "Template k_row_value_alias node", "UnaryOperator k_row_value_alias node", "UnpivotOperator k_include_or_exclude_nulls missing"]]
["SELECT NULL AS 1, 1 AS 1", ["NullLiteral k_alias child", "NumericLiteral k_alias child"]]
["SELECT () AS 1, [1].f() AS 1, (1) AS 1", ["EmptyStruct k_alias child", "FunctionChain k_alias child", "FunctionChain k_with_offset missing", "GroupedExpr k_alias child"]]
["l: CREATE PROCEDURE dataset.procede() BEGIN SELECT 1; END l", ["CreateProcedureStatement k_colon node", "CreateProcedureStatement k_leading_label node", "CreateProcedureStatement k_trailing_label node"]]
["l: CREATE ROW ACCESS POLICY new_filter\nON tablename\nFILTER USING (TRUE) l", ["CreateRowAccessPolicyStatement k_colon node", "CreateRowAccessPolicyStatement k_leading_label node", "CreateRowAccessPolicyStatement k_trailing_label node"]]
["SELECT (1, SELECT 1 FROM t WHERE a AS x, 2)", ["SelectStatement k_alias node", "SelectStatement k_as node", "SelectStatement k_comma node"]]
["SELECT WITH(GROUP AS 1, a)", ["Unknown k_as node", "Unknown k_comma node"]]
["SELECT 1 FROM UNNEST ASC NULLS FIRST WITH OFFSET", ["CallingUnnest k_null_order vec", "CallingUnnest k_order node"]]
["SELECT a[1] AS 1, [1] AS 1, * AS 1, a BETWEEN 1 AND 2 AS 1, a + 1 AS 1, TRUE AS 1", ["AccessOperator k_alias child", "ArrayLiteral k_alias child", "Asterisk k_alias child", "BetweenOperator k_alias child", "BinaryOperator k_alias child", "BooleanLiteral k_alias child"]]
["SELECT 1 FROM f(1) DESC NULLS FIRST", ["CallingTableFunction k_null_order vec", "CallingTableFunction k_order node"]]
["l: EXPORT DATA OPTIONS(a=1) AS SELECT 1 FROM t WHERE b l", ["ExportDataStatement k_colon node", "ExportDataStatement k_leading_label node", "ExportDataStatement k_trailing_label node"]]
["FROM t UNPIVOT(a FOR b IN (a[1] 1, [1] 1, * 1, a BETWEEN 1 AND 2 1, a + 1 1, TRUE 1))", ["AccessOperator k_row_value_alias node", "ArrayLiteral k_row_value_alias node", "Asterisk k_row_value_alias node", "BetweenOperator k_row_value_alias node", "BinaryOperator k_row_value_alias node", "BooleanLiteral k_row_value_alias node"]]
["FROM a + 1 FOR SYSTEM_TIME AS OF 1 WITH OFFSET", ["BinaryOperator k_for_system_time_as_of node", "BinaryOperator k_with_offset node"]]
["SELECT (1, SELECT 1 UNION ALL SELECT 1 FROM t WHERE b AS x, 2)", ["SetOperator k_alias node", "SetOperator k_as node", "SetOperator k_comma node"]]
["SELECT 'a' AS 1, STRUCT() AS 1", ["StringLiteral k_alias child", "StructLiteral k_alias child"]]
["FROM a IN () FOR SYSTEM_TIME AS OF 1 WITH OFFSET", ["InOperator k_for_system_time_as_of node", "InOperator k_with_offset node"]]
["SELECT (SELECT 1) AS 1, a IN (1) AS 1, INTERVAL 1 DAY AS 1", ["GroupedStatement k_alias child", "InOperator k_alias child", "IntervalLiteral k_alias child"]]
["FROM a BETWEEN 1 AND 2 FOR SYSTEM_TIME AS OF 1 WITH OFFSET", ["BetweenOperator k_for_system_time_as_of node", "BetweenOperator k_with_offset node"]]
["FROM a IS DISTINCT FROM 1 FOR SYSTEM_TIME AS OF 1 WITH OFFSET", ["IsDistinctFromOperator k_for_system_time_as_of node", "IsDistinctFromOperator k_with_offset node"]]
["SELECT f(1) AS 1, CASE WHEN a THEN 1 END AS 1, a.b AS 1", ["CallingFunction k_alias child", "CaseExpr k_alias child", "DotOperator k_alias child"]]
["SELECT f(SELECT 1 |> DISTINCT DESC NULLS FIRST, 2)", ["PipeStatement k_null_order vec", "PipeStatement k_order node"]]
["FROM f()[0] FOR SYSTEM_TIME AS OF 1 WITH OFFSET", ["AccessOperator k_for_system_time_as_of node", "AccessOperator k_with_offset node"]]
["(SELECT 1) UNION ALL (SELECT 2) ORDER BY 1 LIMIT 1", ["SetOperator k_limit node", "SetOperator k_orderby node"]]
["FROM (1) FOR SYSTEM_TIME AS OF 1 TABLESAMPLE SYSTEM (1 PERCENT)", ["GroupedExpr k_for_system_time_as_of node", "GroupedExpr k_tablesample node"]]
["FROM (SELECT 1) |> DISTINCT FOR SYSTEM_TIME AS OF 1 WITH OFFSET", ["PipeStatement k_for_system_time_as_of node", "PipeStatement k_with_offset node"]]
["SELECT\n-- c\n)", ["Unknown k_leading_comments vec"]]
["FROM t UNPIVOT(a FOR b IN (a.b 1, [1].f() 1, a IN (1) 1, INTERVAL 1 DAY 1, a IS DISTINCT FROM 1 1))", ["DotOperator k_row_value_alias node", "FunctionChain k_row_value_alias node", "InOperator k_row_value_alias node", "IntervalLiteral k_row_value_alias node", "IsDistinctFromOperator k_row_value_alias node"]]
["FROM (SELECT 1) FOR SYSTEM_TIME AS OF 1 TABLESAMPLE SYSTEM (1 PERCENT)", ["GroupedStatement k_for_system_time_as_of node", "GroupedStatement k_tablesample node"]]
["ALTER COLUMN a DROP DEFAULT;", ["AlterColumnStatement k_semicolon node"]]
["SELECT f(SELECT 1 FROM (SELECT 1) AS t DESC NULLS FIRST, 2)", ["SelectStatement k_null_order vec", "SelectStatement k_order node"]]
["SELECT 1 FROM -a AS x", ["MultiTokenIdentifier k_with_offset missing"]]
["CREATE EXTERNAL TABLE a WITH PARTITION COLUMNS", ["WithPartitionColumnsClause k_column_schema_group missing"]]
["SELECT ARRAY(WITH a AS (SELECT 1) FROM t |> WHERE a AS 1)", ["Identifier k_alias child", "PipeStatement k_with node"]]
["SELECT f(WITH a AS (SELECT 1) FROM t x DESC NULLS FIRST, 2)", ["FromStatement k_null_order vec", "FromStatement k_order node"]]
["FROM f().g() FOR SYSTEM_TIME AS OF 1 TABLESAMPLE SYSTEM (1 PERCENT)", ["FunctionChain k_for_system_time_as_of node", "FunctionChain k_tablesample node"]]
["SELECT a IS DISTINCT FROM 1 AS 1", ["IsDistinctFromOperator k_alias child"]]
["SELECT -- c\n GROUP -- d\n", ["Unknown k_trailing_comments vec"]]
["FROM a IN () MATCH_RECOGNIZE ()", ["InOperator k_match_recognize node"]]
["SELECT f(SELECT 1 UNION ALL SELECT 1 FROM (SELECT 1) AS t DESC NULLS FIRST, 2)", ["SetOperator k_null_order vec", "SetOperator k_order node"]]
["l: SELECT 1\nFROM t1 AS t l", ["SelectStatement k_trailing_label node"]]
["SELECT 1 FROM UNNEST LIKE ANY (a)", ["CallingUnnest k_quantifier node"]]
["FROM a BETWEEN 1 AND 2 MATCH_RECOGNIZE ()", ["BetweenOperator k_match_recognize node"]]
["FROM a IS DISTINCT FROM 1 MATCH_RECOGNIZE ()", ["IsDistinctFromOperator k_match_recognize node"]]
["FROM t UNPIVOT(a FOR b IN (f(1) 1, CASE WHEN a THEN 1 END 1))", ["CallingFunction k_row_value_alias node", "CaseExpr k_row_value_alias node"]]
["SELECT RANGE<DATE> '1' AS 1", ["RangeLiteral k_alias child"]]
["SELECT 1 FROM UNNEST IS DISTINCT FROM 1 WITH OFFSET", ["CallingUnnest k_from node"]]
["FROM f()[0] MATCH_RECOGNIZE ()", ["AccessOperator k_match_recognize node"]]
["FROM (SELECT 1) |> DISTINCT MATCH_RECOGNIZE ()", ["PipeStatement k_match_recognize node"]]
["SELECT 1 FROM a + 1 TABLESAMPLE SYSTEM (1 PERCENT)", ["BinaryOperator k_tablesample node"]]
["SELECT f(1) OVER (ORDER BY a ROWS)", ["WindowFrameClause k_start missing"]]
["SELECT 1 UNION ALL (SELECT 2) |> WHERE a", ["SetOperator k_right child"]]
["SELECT 1 FROM f(1) TABLESAMPLE SYSTEM (1 PERCENT)", ["CallingTableFunction k_tablesample node"]]
["FROM t UNPIVOT(a FOR b IN (GROUP 1))", ["Unknown k_row_value_alias node"]]
["FROM a + 1 PIVOT(a FOR b IN ())", ["BinaryOperator k_pivot node"]]
["FROM a + 1 UNPIVOT(a FOR b IN ())", ["BinaryOperator k_unpivot node"]]
["FROM a IN () WITH OFFSET TABLESAMPLE SYSTEM (1 PERCENT)", ["InOperator k_tablesample node"]]
["SELECT 1 FROM a BETWEEN 1 AND 2 TABLESAMPLE SYSTEM (1 PERCENT)", ["BetweenOperator k_tablesample node"]]
["SELECT 1 FROM a IS DISTINCT FROM 1 TABLESAMPLE SYSTEM (1 PERCENT)", ["IsDistinctFromOperator k_tablesample node"]]
["FROM a IN () PIVOT(a FOR b IN ())", ["InOperator k_pivot node"]]
["FROM a IN () UNPIVOT(a FOR b IN ())", ["InOperator k_unpivot node"]]
["FROM f()[0] WITH OFFSET TABLESAMPLE SYSTEM (1 PERCENT)", ["AccessOperator k_tablesample node"]]
["FROM a BETWEEN 1 AND 2 PIVOT(a FOR b IN ())", ["BetweenOperator k_pivot node"]]
["FROM a BETWEEN 1 AND 2 UNPIVOT(a FOR b IN ())", ["BetweenOperator k_unpivot node"]]
["FROM a IS DISTINCT FROM 1 PIVOT(a FOR b IN ())", ["IsDistinctFromOperator k_pivot node"]]
["FROM a IS DISTINCT FROM 1 UNPIVOT(a FOR b IN ())", ["IsDistinctFromOperator k_unpivot node"]]
["FROM f()[0] PIVOT(a FOR b IN ())", ["AccessOperator k_pivot node"]]
["FROM f()[0] UNPIVOT(a FOR b IN ())", ["AccessOperator k_unpivot node"]]
["FROM (SELECT 1) |> DISTINCT WITH OFFSET TABLESAMPLE SYSTEM (1 PERCENT)", ["PipeStatement k_tablesample node"]]
["FROM t UNPIVOT(a FOR b IN (SELECT 1 |> DISTINCT 1))", ["PipeStatement k_row_value_alias node"]]
["FROM (SELECT 1) |> DISTINCT PIVOT(a FOR b IN ())", ["PipeStatement k_pivot node"]]
["FROM (SELECT 1) |> DISTINCT UNPIVOT(a FOR b IN ())", ["PipeStatement k_unpivot node"]]
["SELECT * FROM t MATCH_RECOGNIZE (AFTER MATCH SKIP TO NEXT ROW PATTERN (a))", ["KeywordSequence k_next_keyword missing"]]
["FROM t UNPIVOT(a FOR b IN (SELECT 1 FROM t WHERE a 1))", ["SelectStatement k_row_value_alias node"]]
["SELECT *\nFROM t UNPIVOT (\n  c1\n  FOR v\n  IN (v1 1, v2 AS 2)\n) AS unpivot", ["Identifier k_row_value_alias node"]]
["FROM t UNPIVOT(a FOR b IN (WITH a AS (SELECT 1) FROM t x 1))", ["FromStatement k_row_value_alias node"]]
["FROM t UNPIVOT(a FOR b IN (WITH a AS (SELECT 1) (SELECT 1) 1))", ["GroupedStatement k_row_value_alias node"]]
["FROM t UNPIVOT(a FOR b IN (SELECT 1 UNION ALL SELECT 1 FROM (SELECT 1) AS t 1))", ["SetOperator k_row_value_alias node"]]
