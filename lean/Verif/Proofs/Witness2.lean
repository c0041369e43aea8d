import Verif.Proofs.Deviation
/-! Generated by tools/witnesses.py: inputs on which the trees deviate from the declarations. -/
namespace Verif.Dev
open Spec

set_option maxRecDepth 100000

def w2_0 : String × List Deviation := ("l: (FROM table) l",
  [.missing .FromStatement .k_with, .node .GroupedStatement .k_colon, .node .GroupedStatement .k_leading_label, .missing .GroupedStatement .k_limit, .missing .GroupedStatement .k_orderby, .node .GroupedStatement .k_trailing_label, .missing .GroupedStatement .k_with_offset])
theorem w2_0_ok : shows w2_0 = true := by decide +kernel

def w2_1 : String × List Deviation := ("l: CREATE SCHEMA dataset_name l",
  [.node .CreateSchemaStatement .k_colon, .missing .CreateSchemaStatement .k_default_collate, .node .CreateSchemaStatement .k_leading_label, .node .CreateSchemaStatement .k_trailing_label])
theorem w2_1_ok : shows w2_1 = true := by decide +kernel

def w2_2 : String × List Deviation := ("l: RAISE l",
  [.node .RaiseStatement .k_colon, .node .RaiseStatement .k_leading_label, .node .RaiseStatement .k_trailing_label])
theorem w2_2_ok : shows w2_2 = true := by decide +kernel

def w2_3 : String × List Deviation := ("l: SELECT SUM(x) OVER ();",
  [.node .SelectStatement .k_colon, .node .SelectStatement .k_leading_label, .missing .WindowSpecification .k_frame, .missing .WindowSpecification .k_orderby, .missing .WindowSpecification .k_partitionby])
theorem w2_3_ok : shows w2_3 = true := by decide +kernel

def w2_4 : String × List Deviation := ("l: BREAK a l",
  [.node .BreakContinueStatement .k_colon, .node .BreakContinueStatement .k_leading_label, .node .BreakContinueStatement .k_trailing_label])
theorem w2_4_ok : shows w2_4 = true := by decide +kernel

def w2_5 : String × List Deviation := ("l: DROP TABLE example l",
  [.node .DropStatement .k_colon, .node .DropStatement .k_leading_label, .node .DropStatement .k_trailing_label])
theorem w2_5_ok : shows w2_5 = true := by decide +kernel

def w2_6 : String × List Deviation := ("l: EXPORT MODEL ident l",
  [.node .ExportModelStatement .k_colon, .node .ExportModelStatement .k_leading_label, .node .ExportModelStatement .k_trailing_label])
theorem w2_6_ok : shows w2_6 = true := by decide +kernel

def w2_7 : String × List Deviation := ("l: CALL mydataset.myprocedure(1) l",
  [.node .CallStatement .k_colon, .node .CallStatement .k_leading_label, .node .CallStatement .k_trailing_label, .missing .DotOperator .k_with_offset])
theorem w2_7_ok : shows w2_7 = true := by decide +kernel

def w2_8 : String × List Deviation := ("l: SET x = 5 l",
  [.node .SetStatement .k_colon, .node .SetStatement .k_leading_label, .node .SetStatement .k_trailing_label])
theorem w2_8_ok : shows w2_8 = true := by decide +kernel

def w2_9 : String × List Deviation := ("SELECT 1 FROM UNNEST(DISTINCT a IGNORE NULLS ORDER BY a LIMIT 1 HAVING MAX b) OVER w TABLESAMPLE SYSTEM (1 PERCENT)",
  [.node .CallingUnnest .k_distinct, .node .CallingUnnest .k_having, .vec .CallingUnnest .k_ignore_nulls, .node .CallingUnnest .k_limit, .node .CallingUnnest .k_orderby, .node .CallingUnnest .k_over, .node .CallingUnnest .k_tablesample])
theorem w2_9_ok : shows w2_9 = true := by decide +kernel

def w2_10 : String × List Deviation := ("l: CREATE CAPACITY a OPTIONS() l",
  [.node .CreateReservationStatement .k_colon, .node .CreateReservationStatement .k_leading_label, .node .CreateReservationStatement .k_trailing_label])
theorem w2_10_ok : shows w2_10 = true := by decide +kernel

def w2_11 : String × List Deviation := ("l: ALTER TABLE example\nADD COLUMN x INT64 l",
  [.node .AlterTableStatement .k_colon, .node .AlterTableStatement .k_leading_label, .node .AlterTableStatement .k_trailing_label])
theorem w2_11_ok : shows w2_11 = true := by decide +kernel

def w2_12 : String × List Deviation := ("l: ALTER MODEL ident SET OPTIONS () l",
  [.node .AlterModelStatement .k_colon, .node .AlterModelStatement .k_leading_label, .node .AlterModelStatement .k_trailing_label])
theorem w2_12_ok : shows w2_12 = true := by decide +kernel

def w2_13 : String × List Deviation := ("l: REVOKE a ON SCHEMA b FROM c l",
  [.node .RevokeStatement .k_colon, .node .RevokeStatement .k_leading_label, .node .RevokeStatement .k_trailing_label])
theorem w2_13_ok : shows w2_13 = true := by decide +kernel

def w2_14 : String × List Deviation := ("l: ALTER VIEW a SET OPTIONS() l",
  [.node .AlterViewStatement .k_colon, .node .AlterViewStatement .k_leading_label, .node .AlterViewStatement .k_trailing_label])
theorem w2_14_ok : shows w2_14 = true := by decide +kernel

def w2_15 : String × List Deviation := ("SELECT @a AS 1",
  [.child .Parameter .k_alias, .missing .Parameter .k_with_offset])
theorem w2_15_ok : shows w2_15 = true := by decide +kernel

def w2_16 : String × List Deviation := ("l: SELECT 1 INTERSECT DISTINCT (SELECT 2) l",
  [.node .SetOperator .k_colon, .node .SetOperator .k_leading_label, .node .SetOperator .k_trailing_label])
theorem w2_16_ok : shows w2_16 = true := by decide +kernel

def w2_17 : String × List Deviation := ("l: INSERT INTO table_name VALUES(1,2) l",
  [.node .InsertStatement .k_colon, .node .InsertStatement .k_leading_label, .node .InsertStatement .k_trailing_label])
theorem w2_17_ok : shows w2_17 = true := by decide +kernel

def w2_18 : String × List Deviation := ("SELECT INTERVAL 1 DAY ASC NULLS FIRST",
  [.vec .IntervalLiteral .k_null_order, .node .IntervalLiteral .k_order])
theorem w2_18_ok : shows w2_18 = true := by decide +kernel

def w2_19 : String × List Deviation := ("SELECT (1, SELECT 1 |> DISTINCT AS x, 2)",
  [.node .PipeStatement .k_alias, .node .PipeStatement .k_as, .node .PipeStatement .k_comma])
theorem w2_19_ok : shows w2_19 = true := by decide +kernel

def w2_20 : String × List Deviation := ("SELECT () AS 1, [1].f() AS 1, (1) AS 1",
  [.child .EmptyStruct .k_alias, .child .FunctionChain .k_alias, .missing .FunctionChain .k_with_offset, .child .GroupedExpr .k_alias])
theorem w2_20_ok : shows w2_20 = true := by decide +kernel

def w2_21 : String × List Deviation := ("SELECT (1, SELECT 1 FROM t WHERE a AS x, 2)",
  [.node .SelectStatement .k_alias, .node .SelectStatement .k_as, .node .SelectStatement .k_comma])
theorem w2_21_ok : shows w2_21 = true := by decide +kernel

def w2_22 : String × List Deviation := ("SELECT a[1] AS 1, [1] AS 1, * AS 1, a BETWEEN 1 AND 2 AS 1, a + 1 AS 1, TRUE AS 1",
  [.child .AccessOperator .k_alias, .child .ArrayLiteral .k_alias, .child .Asterisk .k_alias, .child .BetweenOperator .k_alias, .child .BinaryOperator .k_alias, .child .BooleanLiteral .k_alias])
theorem w2_22_ok : shows w2_22 = true := by decide +kernel

def w2_23 : String × List Deviation := ("FROM t UNPIVOT(a FOR b IN (a[1] 1, [1] 1, * 1, a BETWEEN 1 AND 2 1, a + 1 1, TRUE 1))",
  [.node .AccessOperator .k_row_value_alias, .node .ArrayLiteral .k_row_value_alias, .node .Asterisk .k_row_value_alias, .node .BetweenOperator .k_row_value_alias, .node .BinaryOperator .k_row_value_alias, .node .BooleanLiteral .k_row_value_alias])
theorem w2_23_ok : shows w2_23 = true := by decide +kernel

def w2_24 : String × List Deviation := ("SELECT 'a' AS 1, STRUCT() AS 1",
  [.child .StringLiteral .k_alias, .child .StructLiteral .k_alias])
theorem w2_24_ok : shows w2_24 = true := by decide +kernel

def w2_25 : String × List Deviation := ("FROM a BETWEEN 1 AND 2 FOR SYSTEM_TIME AS OF 1 WITH OFFSET",
  [.node .BetweenOperator .k_for_system_time_as_of, .node .BetweenOperator .k_with_offset])
theorem w2_25_ok : shows w2_25 = true := by decide +kernel

def w2_26 : String × List Deviation := ("SELECT f(SELECT 1 |> DISTINCT DESC NULLS FIRST, 2)",
  [.vec .PipeStatement .k_null_order, .node .PipeStatement .k_order])
theorem w2_26_ok : shows w2_26 = true := by decide +kernel

def w2_27 : String × List Deviation := ("FROM (1) FOR SYSTEM_TIME AS OF 1 TABLESAMPLE SYSTEM (1 PERCENT)",
  [.node .GroupedExpr .k_for_system_time_as_of, .node .GroupedExpr .k_tablesample])
theorem w2_27_ok : shows w2_27 = true := by decide +kernel

def w2_28 : String × List Deviation := ("FROM t UNPIVOT(a FOR b IN (a.b 1, [1].f() 1, a IN (1) 1, INTERVAL 1 DAY 1, a IS DISTINCT FROM 1 1))",
  [.node .DotOperator .k_row_value_alias, .node .FunctionChain .k_row_value_alias, .node .InOperator .k_row_value_alias, .node .IntervalLiteral .k_row_value_alias, .node .IsDistinctFromOperator .k_row_value_alias])
theorem w2_28_ok : shows w2_28 = true := by decide +kernel

def w2_29 : String × List Deviation := ("SELECT f(SELECT 1 FROM (SELECT 1) AS t DESC NULLS FIRST, 2)",
  [.vec .SelectStatement .k_null_order, .node .SelectStatement .k_order])
theorem w2_29_ok : shows w2_29 = true := by decide +kernel

def w2_30 : String × List Deviation := ("SELECT ARRAY(WITH a AS (SELECT 1) FROM t |> WHERE a AS 1)",
  [.child .Identifier .k_alias, .node .PipeStatement .k_with])
theorem w2_30_ok : shows w2_30 = true := by decide +kernel

def w2_31 : String × List Deviation := ("SELECT a IS DISTINCT FROM 1 AS 1",
  [.child .IsDistinctFromOperator .k_alias])
theorem w2_31_ok : shows w2_31 = true := by decide +kernel

def w2_32 : String × List Deviation := ("SELECT f(SELECT 1 UNION ALL SELECT 1 FROM (SELECT 1) AS t DESC NULLS FIRST, 2)",
  [.vec .SetOperator .k_null_order, .node .SetOperator .k_order])
theorem w2_32_ok : shows w2_32 = true := by decide +kernel

def w2_33 : String × List Deviation := ("FROM a BETWEEN 1 AND 2 MATCH_RECOGNIZE ()",
  [.node .BetweenOperator .k_match_recognize])
theorem w2_33_ok : shows w2_33 = true := by decide +kernel

def w2_34 : String × List Deviation := ("SELECT RANGE<DATE> '1' AS 1",
  [.child .RangeLiteral .k_alias])
theorem w2_34_ok : shows w2_34 = true := by decide +kernel

def w2_35 : String × List Deviation := ("FROM (SELECT 1) |> DISTINCT MATCH_RECOGNIZE ()",
  [.node .PipeStatement .k_match_recognize])
theorem w2_35_ok : shows w2_35 = true := by decide +kernel

def w2_36 : String × List Deviation := ("SELECT 1 UNION ALL (SELECT 2) |> WHERE a",
  [.child .SetOperator .k_right])
theorem w2_36_ok : shows w2_36 = true := by decide +kernel

def w2_37 : String × List Deviation := ("FROM a + 1 PIVOT(a FOR b IN ())",
  [.node .BinaryOperator .k_pivot])
theorem w2_37_ok : shows w2_37 = true := by decide +kernel

def w2_38 : String × List Deviation := ("SELECT 1 FROM a BETWEEN 1 AND 2 TABLESAMPLE SYSTEM (1 PERCENT)",
  [.node .BetweenOperator .k_tablesample])
theorem w2_38_ok : shows w2_38 = true := by decide +kernel

def w2_39 : String × List Deviation := ("FROM a IN () UNPIVOT(a FOR b IN ())",
  [.node .InOperator .k_unpivot])
theorem w2_39_ok : shows w2_39 = true := by decide +kernel

def w2_40 : String × List Deviation := ("FROM a BETWEEN 1 AND 2 UNPIVOT(a FOR b IN ())",
  [.node .BetweenOperator .k_unpivot])
theorem w2_40_ok : shows w2_40 = true := by decide +kernel

def w2_41 : String × List Deviation := ("FROM f()[0] PIVOT(a FOR b IN ())",
  [.node .AccessOperator .k_pivot])
theorem w2_41_ok : shows w2_41 = true := by decide +kernel

def w2_42 : String × List Deviation := ("FROM t UNPIVOT(a FOR b IN (SELECT 1 |> DISTINCT 1))",
  [.node .PipeStatement .k_row_value_alias])
theorem w2_42_ok : shows w2_42 = true := by decide +kernel

def w2_43 : String × List Deviation := ("SELECT * FROM t MATCH_RECOGNIZE (AFTER MATCH SKIP TO NEXT ROW PATTERN (a))",
  [.missing .KeywordSequence .k_next_keyword])
theorem w2_43_ok : shows w2_43 = true := by decide +kernel

def w2_44 : String × List Deviation := ("FROM t UNPIVOT(a FOR b IN (WITH a AS (SELECT 1) FROM t x 1))",
  [.node .FromStatement .k_row_value_alias])
theorem w2_44_ok : shows w2_44 = true := by decide +kernel

/-- All witnesses of this file. -/
def witnesses2 : List (String × List Deviation) := [
  w2_0,
  w2_1,
  w2_2,
  w2_3,
  w2_4,
  w2_5,
  w2_6,
  w2_7,
  w2_8,
  w2_9,
  w2_10,
  w2_11,
  w2_12,
  w2_13,
  w2_14,
  w2_15,
  w2_16,
  w2_17,
  w2_18,
  w2_19,
  w2_20,
  w2_21,
  w2_22,
  w2_23,
  w2_24,
  w2_25,
  w2_26,
  w2_27,
  w2_28,
  w2_29,
  w2_30,
  w2_31,
  w2_32,
  w2_33,
  w2_34,
  w2_35,
  w2_36,
  w2_37,
  w2_38,
  w2_39,
  w2_40,
  w2_41,
  w2_42,
  w2_43,
  w2_44]

theorem witnesses2_ok : ∀ w ∈ witnesses2, shows w = true := by
  simp only [witnesses2, List.forall_mem_cons]
  exact ⟨w2_0_ok, w2_1_ok, w2_2_ok, w2_3_ok, w2_4_ok, w2_5_ok, w2_6_ok, w2_7_ok, w2_8_ok, w2_9_ok, w2_10_ok, w2_11_ok, w2_12_ok, w2_13_ok, w2_14_ok, w2_15_ok, w2_16_ok, w2_17_ok, w2_18_ok, w2_19_ok, w2_20_ok, w2_21_ok, w2_22_ok, w2_23_ok, w2_24_ok, w2_25_ok, w2_26_ok, w2_27_ok, w2_28_ok, w2_29_ok, w2_30_ok, w2_31_ok, w2_32_ok, w2_33_ok, w2_34_ok, w2_35_ok, w2_36_ok, w2_37_ok, w2_38_ok, w2_39_ok, w2_40_ok, w2_41_ok, w2_42_ok, w2_43_ok, w2_44_ok, by simp⟩

end Verif.Dev
