import Verif.Proofs.Deviation
/-! Generated by tools/witnesses.py: inputs on which the trees deviate from the declarations. -/
namespace Verif.Dev
open Spec

set_option maxRecDepth 100000

def w1_0 : String × List Deviation := ("SELECT 1 FROM UNNEST.a , UNNEST.a",
  [.missing .CallingUnnest .k_func, .node .CallingUnnest .k_left, .node .CallingUnnest .k_right, .missing .CallingUnnest .k_rparen, .missing .CallingUnnest .k_with_offset, .missing .Identifier .k_with_offset, .missing .JoinOperator .k_join_type, .missing .JoinOperator .k_on, .missing .JoinOperator .k_outer, .missing .JoinOperator .k_using, .missing .JoinOperator .k_with_offset])
theorem w1_0_ok : shows w1_0 = true := by decide +kernel

def w1_1 : String × List Deviation := ("l: IF TRUE THEN END IF l",
  [.node .IfStatement .k_colon, .missing .IfStatement .k_else, .missing .IfStatement .k_elseifs, .node .IfStatement .k_leading_label, .node .IfStatement .k_trailing_label])
theorem w1_1_ok : shows w1_1 = true := by decide +kernel

def w1_2 : String × List Deviation := ("l: DELETE table_name WHERE TRUE l",
  [.node .DeleteStatement .k_colon, .missing .DeleteStatement .k_from, .node .DeleteStatement .k_leading_label, .node .DeleteStatement .k_trailing_label])
theorem w1_2_ok : shows w1_2 = true := by decide +kernel

def w1_3 : String × List Deviation := ("l: COMMIT l",
  [.node .TransactionStatement .k_colon, .node .TransactionStatement .k_leading_label, .node .TransactionStatement .k_trailing_label])
theorem w1_3_ok : shows w1_3 = true := by decide +kernel

def w1_4 : String × List Deviation := ("l: ALTER COLUMN a DROP DEFAULT l",
  [.node .AlterColumnStatement .k_colon, .node .AlterColumnStatement .k_leading_label, .missing .AlterColumnStatement .k_set, .node .AlterColumnStatement .k_trailing_label])
theorem w1_4_ok : shows w1_4 = true := by decide +kernel

def w1_5 : String × List Deviation := ("l: UPDATE t SET a = 1 l",
  [.node .UpdateStatement .k_colon, .node .UpdateStatement .k_leading_label, .node .UpdateStatement .k_trailing_label, .missing .UpdateStatement .k_where])
theorem w1_5_ok : shows w1_5 = true := by decide +kernel

def w1_6 : String × List Deviation := ("l: TRUNCATE TABLE t l",
  [.node .TruncateStatement .k_colon, .node .TruncateStatement .k_leading_label, .node .TruncateStatement .k_trailing_label])
theorem w1_6_ok : shows w1_6 = true := by decide +kernel

def w1_7 : String × List Deviation := ("l: DECLARE x INT64 l",
  [.node .DeclareStatement .k_colon, .node .DeclareStatement .k_leading_label, .node .DeclareStatement .k_trailing_label])
theorem w1_7_ok : shows w1_7 = true := by decide +kernel

def w1_8 : String × List Deviation := ("SELECT 1 FROM f(DISTINCT a IGNORE NULLS ORDER BY a LIMIT 1 HAVING MAX b) OVER w FOR SYSTEM_TIME AS OF 1",
  [.node .CallingTableFunction .k_distinct, .node .CallingTableFunction .k_for_system_time_as_of, .node .CallingTableFunction .k_having, .vec .CallingTableFunction .k_ignore_nulls, .node .CallingTableFunction .k_limit, .node .CallingTableFunction .k_orderby, .node .CallingTableFunction .k_over, .missing .CallingTableFunction .k_with_offset])
theorem w1_8_ok : shows w1_8 = true := by decide +kernel

def w1_9 : String × List Deviation := ("l: FROM t |> DISTINCT l",
  [.node .PipeStatement .k_colon, .node .PipeStatement .k_leading_label, .node .PipeStatement .k_trailing_label])
theorem w1_9_ok : shows w1_9 = true := by decide +kernel

def w1_10 : String × List Deviation := ("l: ALTER ORGANIZATION SET OPTIONS() l",
  [.node .AlterOrganizationStatement .k_colon, .node .AlterOrganizationStatement .k_leading_label, .node .AlterOrganizationStatement .k_trailing_label])
theorem w1_10_ok : shows w1_10 = true := by decide +kernel

def w1_11 : String × List Deviation := ("l: MERGE t\nUSING s ON t.id = s.id\nWHEN MATCHED THEN DELETE l",
  [.node .MergeStatement .k_colon, .node .MergeStatement .k_leading_label, .node .MergeStatement .k_trailing_label, .missing .WhenClause .k_and, .missing .WhenClause .k_by_target_or_source])
theorem w1_11_ok : shows w1_11 = true := by decide +kernel

def w1_12 : String × List Deviation := ("l: DROP ROW ACCESS POLICY ident ON tablename l",
  [.node .DropRowAccessPolicyStatement .k_colon, .node .DropRowAccessPolicyStatement .k_leading_label, .node .DropRowAccessPolicyStatement .k_trailing_label])
theorem w1_12_ok : shows w1_12 = true := by decide +kernel

def w1_13 : String × List Deviation := ("l: GRANT a ON SCHEMA b TO c l",
  [.node .GrantStatement .k_colon, .node .GrantStatement .k_leading_label, .node .GrantStatement .k_trailing_label])
theorem w1_13_ok : shows w1_13 = true := by decide +kernel

def w1_14 : String × List Deviation := ("l: ALTER PROJECT a SET OPTIONS() l",
  [.node .AlterProjectStatement .k_colon, .node .AlterProjectStatement .k_leading_label, .node .AlterProjectStatement .k_trailing_label])
theorem w1_14_ok : shows w1_14 = true := by decide +kernel

def w1_15 : String × List Deviation := ("SELECT * ASC NULLS FIRST",
  [.vec .Asterisk .k_null_order, .node .Asterisk .k_order])
theorem w1_15_ok : shows w1_15 = true := by decide +kernel

def w1_16 : String × List Deviation := ("l: CREATE MODEL ident\nAS (SELECT 1) l",
  [.node .CreateModelStatement .k_colon, .node .CreateModelStatement .k_leading_label, .node .CreateModelStatement .k_trailing_label])
theorem w1_16_ok : shows w1_16 = true := by decide +kernel

def w1_17 : String × List Deviation := ("l: LOAD DATA OVERWRITE a FROM FILES () l",
  [.node .LoadStatement .k_colon, .node .LoadStatement .k_leading_label, .node .LoadStatement .k_trailing_label])
theorem w1_17_ok : shows w1_17 = true := by decide +kernel

def w1_18 : String × List Deviation := ("SELECT EXTRACT(DAY FROM ts)",
  [.missing .ExtractArgument .k_at_time_zone, .missing .ExtractArgument .k_time_zone])
theorem w1_18_ok : shows w1_18 = true := by decide +kernel

def w1_19 : String × List Deviation := ("SELECT (1, WITH a AS (SELECT 1) FROM t x AS x, 2)",
  [.node .FromStatement .k_alias, .node .FromStatement .k_as, .node .FromStatement .k_comma, .missing .WithQuery .k_comma])
theorem w1_19_ok : shows w1_19 = true := by decide +kernel

def w1_20 : String × List Deviation := ("SELECT NULL AS 1, 1 AS 1",
  [.child .NullLiteral .k_alias, .child .NumericLiteral .k_alias])
theorem w1_20_ok : shows w1_20 = true := by decide +kernel

def w1_21 : String × List Deviation := ("l: CREATE ROW ACCESS POLICY new_filter\nON tablename\nFILTER USING (TRUE) l",
  [.node .CreateRowAccessPolicyStatement .k_colon, .node .CreateRowAccessPolicyStatement .k_leading_label, .node .CreateRowAccessPolicyStatement .k_trailing_label])
theorem w1_21_ok : shows w1_21 = true := by decide +kernel

def w1_22 : String × List Deviation := ("SELECT 1 FROM UNNEST ASC NULLS FIRST WITH OFFSET",
  [.vec .CallingUnnest .k_null_order, .node .CallingUnnest .k_order])
theorem w1_22_ok : shows w1_22 = true := by decide +kernel

def w1_23 : String × List Deviation := ("l: EXPORT DATA OPTIONS(a=1) AS SELECT 1 FROM t WHERE b l",
  [.node .ExportDataStatement .k_colon, .node .ExportDataStatement .k_leading_label, .node .ExportDataStatement .k_trailing_label])
theorem w1_23_ok : shows w1_23 = true := by decide +kernel

def w1_24 : String × List Deviation := ("SELECT (1, SELECT 1 UNION ALL SELECT 1 FROM t WHERE b AS x, 2)",
  [.node .SetOperator .k_alias, .node .SetOperator .k_as, .node .SetOperator .k_comma])
theorem w1_24_ok : shows w1_24 = true := by decide +kernel

def w1_25 : String × List Deviation := ("SELECT (SELECT 1) AS 1, a IN (1) AS 1, INTERVAL 1 DAY AS 1",
  [.child .GroupedStatement .k_alias, .child .InOperator .k_alias, .child .IntervalLiteral .k_alias])
theorem w1_25_ok : shows w1_25 = true := by decide +kernel

def w1_26 : String × List Deviation := ("SELECT f(1) AS 1, CASE WHEN a THEN 1 END AS 1, a.b AS 1",
  [.child .CallingFunction .k_alias, .child .CaseExpr .k_alias, .child .DotOperator .k_alias])
theorem w1_26_ok : shows w1_26 = true := by decide +kernel

def w1_27 : String × List Deviation := ("(SELECT 1) UNION ALL (SELECT 2) ORDER BY 1 LIMIT 1",
  [.node .SetOperator .k_limit, .node .SetOperator .k_orderby])
theorem w1_27_ok : shows w1_27 = true := by decide +kernel

def w1_28 : String × List Deviation := ("SELECT\n-- c\n)",
  [.vec .Unknown .k_leading_comments])
theorem w1_28_ok : shows w1_28 = true := by decide +kernel

def w1_29 : String × List Deviation := ("ALTER COLUMN a DROP DEFAULT;",
  [.node .AlterColumnStatement .k_semicolon])
theorem w1_29_ok : shows w1_29 = true := by decide +kernel

def w1_30 : String × List Deviation := ("CREATE EXTERNAL TABLE a WITH PARTITION COLUMNS",
  [.missing .WithPartitionColumnsClause .k_column_schema_group])
theorem w1_30_ok : shows w1_30 = true := by decide +kernel

def w1_31 : String × List Deviation := ("FROM f().g() FOR SYSTEM_TIME AS OF 1 TABLESAMPLE SYSTEM (1 PERCENT)",
  [.node .FunctionChain .k_for_system_time_as_of, .node .FunctionChain .k_tablesample])
theorem w1_31_ok : shows w1_31 = true := by decide +kernel

def w1_32 : String × List Deviation := ("FROM a IN () MATCH_RECOGNIZE ()",
  [.node .InOperator .k_match_recognize])
theorem w1_32_ok : shows w1_32 = true := by decide +kernel

def w1_33 : String × List Deviation := ("SELECT 1 FROM UNNEST LIKE ANY (a)",
  [.node .CallingUnnest .k_quantifier])
theorem w1_33_ok : shows w1_33 = true := by decide +kernel

def w1_34 : String × List Deviation := ("FROM t UNPIVOT(a FOR b IN (f(1) 1, CASE WHEN a THEN 1 END 1))",
  [.node .CallingFunction .k_row_value_alias, .node .CaseExpr .k_row_value_alias])
theorem w1_34_ok : shows w1_34 = true := by decide +kernel

def w1_35 : String × List Deviation := ("FROM f()[0] MATCH_RECOGNIZE ()",
  [.node .AccessOperator .k_match_recognize])
theorem w1_35_ok : shows w1_35 = true := by decide +kernel

def w1_36 : String × List Deviation := ("SELECT f(1) OVER (ORDER BY a ROWS)",
  [.missing .WindowFrameClause .k_start])
theorem w1_36_ok : shows w1_36 = true := by decide +kernel

def w1_37 : String × List Deviation := ("FROM t UNPIVOT(a FOR b IN (GROUP 1))",
  [.node .Unknown .k_row_value_alias])
theorem w1_37_ok : shows w1_37 = true := by decide +kernel

def w1_38 : String × List Deviation := ("FROM a IN () WITH OFFSET TABLESAMPLE SYSTEM (1 PERCENT)",
  [.node .InOperator .k_tablesample])
theorem w1_38_ok : shows w1_38 = true := by decide +kernel

def w1_39 : String × List Deviation := ("FROM a IN () PIVOT(a FOR b IN ())",
  [.node .InOperator .k_pivot])
theorem w1_39_ok : shows w1_39 = true := by decide +kernel

def w1_40 : String × List Deviation := ("FROM a BETWEEN 1 AND 2 PIVOT(a FOR b IN ())",
  [.node .BetweenOperator .k_pivot])
theorem w1_40_ok : shows w1_40 = true := by decide +kernel

def w1_41 : String × List Deviation := ("FROM a IS DISTINCT FROM 1 UNPIVOT(a FOR b IN ())",
  [.node .IsDistinctFromOperator .k_unpivot])
theorem w1_41_ok : shows w1_41 = true := by decide +kernel

def w1_42 : String × List Deviation := ("FROM (SELECT 1) |> DISTINCT WITH OFFSET TABLESAMPLE SYSTEM (1 PERCENT)",
  [.node .PipeStatement .k_tablesample])
theorem w1_42_ok : shows w1_42 = true := by decide +kernel

def w1_43 : String × List Deviation := ("FROM (SELECT 1) |> DISTINCT UNPIVOT(a FOR b IN ())",
  [.node .PipeStatement .k_unpivot])
theorem w1_43_ok : shows w1_43 = true := by decide +kernel

def w1_44 : String × List Deviation := ("SELECT *\nFROM t UNPIVOT (\n  c1\n  FOR v\n  IN (v1 1, v2 AS 2)\n) AS unpivot",
  [.node .Identifier .k_row_value_alias])
theorem w1_44_ok : shows w1_44 = true := by decide +kernel

def w1_45 : String × List Deviation := ("FROM t UNPIVOT(a FOR b IN (SELECT 1 UNION ALL SELECT 1 FROM (SELECT 1) AS t 1))",
  [.node .SetOperator .k_row_value_alias])
theorem w1_45_ok : shows w1_45 = true := by decide +kernel

/-- All witnesses of this file. -/
def witnesses1 : List (String × List Deviation) := [
  w1_0,
  w1_1,
  w1_2,
  w1_3,
  w1_4,
  w1_5,
  w1_6,
  w1_7,
  w1_8,
  w1_9,
  w1_10,
  w1_11,
  w1_12,
  w1_13,
  w1_14,
  w1_15,
  w1_16,
  w1_17,
  w1_18,
  w1_19,
  w1_20,
  w1_21,
  w1_22,
  w1_23,
  w1_24,
  w1_25,
  w1_26,
  w1_27,
  w1_28,
  w1_29,
  w1_30,
  w1_31,
  w1_32,
  w1_33,
  w1_34,
  w1_35,
  w1_36,
  w1_37,
  w1_38,
  w1_39,
  w1_40,
  w1_41,
  w1_42,
  w1_43,
  w1_44,
  w1_45]

theorem witnesses1_ok : ∀ w ∈ witnesses1, shows w = true := by
  simp only [witnesses1, List.forall_mem_cons]
  exact ⟨w1_0_ok, w1_1_ok, w1_2_ok, w1_3_ok, w1_4_ok, w1_5_ok, w1_6_ok, w1_7_ok, w1_8_ok, w1_9_ok, w1_10_ok, w1_11_ok, w1_12_ok, w1_13_ok, w1_14_ok, w1_15_ok, w1_16_ok, w1_17_ok, w1_18_ok, w1_19_ok, w1_20_ok, w1_21_ok, w1_22_ok, w1_23_ok, w1_24_ok, w1_25_ok, w1_26_ok, w1_27_ok, w1_28_ok, w1_29_ok, w1_30_ok, w1_31_ok, w1_32_ok, w1_33_ok, w1_34_ok, w1_35_ok, w1_36_ok, w1_37_ok, w1_38_ok, w1_39_ok, w1_40_ok, w1_41_ok, w1_42_ok, w1_43_ok, w1_44_ok, w1_45_ok, by simp⟩

end Verif.Dev
