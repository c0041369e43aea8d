import Verif.Proofs.Deviation
/-! Generated by tools/witnesses.py: inputs on which the trees deviate from the declarations. -/
namespace Verif.Dev
open Spec

set_option maxRecDepth 100000

def w3_0 : String × List Deviation := ("l: CREATE TABLE example (x int64) l",
  [.node .CreateTableStatement .k_colon, .node .CreateTableStatement .k_leading_label, .missing .CreateTableStatement .k_like_or_copy, .missing .CreateTableStatement .k_source_table, .node .CreateTableStatement .k_trailing_label, .missing .TypeDeclaration .k_in_out])
theorem w3_0_ok : shows w3_0 = true := by decide +kernel

def w3_1 : String × List Deviation := ("l: ASSERT 1 + 1 = 3 l",
  [.missing .AssertStatement .k_as, .node .AssertStatement .k_colon, .missing .AssertStatement .k_description, .node .AssertStatement .k_leading_label, .node .AssertStatement .k_trailing_label])
theorem w3_1_ok : shows w3_1 = true := by decide +kernel

def w3_2 : String × List Deviation := ("l: RETURN l",
  [.node .SingleTokenStatement .k_colon, .node .SingleTokenStatement .k_leading_label, .node .SingleTokenStatement .k_trailing_label])
theorem w3_2_ok : shows w3_2 = true := by decide +kernel

def w3_3 : String × List Deviation := ("SELECT (FROM t ASC NULLS FIRST)",
  [.missing .GroupedExpr .k_with_offset, .node .Unknown .k_alias, .vec .Unknown .k_null_order, .node .Unknown .k_order])
theorem w3_3_ok : shows w3_3 = true := by decide +kernel

def w3_4 : String × List Deviation := ("l: EXECUTE IMMEDIATE 'SELECT 1' l",
  [.node .ExecuteStatement .k_colon, .missing .ExecuteStatement .k_into, .node .ExecuteStatement .k_leading_label, .node .ExecuteStatement .k_trailing_label])
theorem w3_4_ok : shows w3_4 = true := by decide +kernel

def w3_5 : String × List Deviation := ("l: UNDROP SCHEMA datasetname l",
  [.node .UndropStatement .k_colon, .node .UndropStatement .k_leading_label, .node .UndropStatement .k_trailing_label])
theorem w3_5_ok : shows w3_5 = true := by decide +kernel

def w3_6 : String × List Deviation := ("l: FROM table; l",
  [.node .FromStatement .k_colon, .node .FromStatement .k_leading_label, .node .FromStatement .k_trailing_label])
theorem w3_6_ok : shows w3_6 = true := by decide +kernel

def w3_7 : String × List Deviation := ("SELECT 1 FROM UNNEST NOT BETWEEN 1 AND 2 FOR SYSTEM_TIME AS OF 1",
  [.node .CallingUnnest .k_and, .node .CallingUnnest .k_for_system_time_as_of, .node .CallingUnnest .k_not, .node .CallingUnnest .k_right_max, .node .CallingUnnest .k_right_min])
theorem w3_7_ok : shows w3_7 = true := by decide +kernel

def w3_8 : String × List Deviation := ("CREATE VIEW v(a.b, c-d)",
  [.missing .CreateViewStatement .k_as, .node .IdentWithOptions .k_left, .node .IdentWithOptions .k_right, .vec .IdentWithOptions .k_trailing_idents])
theorem w3_8_ok : shows w3_8 = true := by decide +kernel

def w3_9 : String × List Deviation := ("l: ALTER SCHEMA dataset_name ADD REPLICA replica_name l",
  [.node .AlterSchemaStatement .k_colon, .node .AlterSchemaStatement .k_leading_label, .node .AlterSchemaStatement .k_trailing_label])
theorem w3_9_ok : shows w3_9 = true := by decide +kernel

def w3_10 : String × List Deviation := ("l: CREATE OR REPLACE FUNCTION abc() AS (1) l",
  [.node .CreateFunctionStatement .k_colon, .node .CreateFunctionStatement .k_leading_label, .node .CreateFunctionStatement .k_trailing_label, .missing .GroupedTypeDeclarationOrConstraints .k_declarations])
theorem w3_10_ok : shows w3_10 = true := by decide +kernel

def w3_11 : String × List Deviation := ("l: ALTER VECTOR INDEX index_name ON table_name REBUILD l",
  [.node .AlterVectorIndexStatement .k_colon, .node .AlterVectorIndexStatement .k_leading_label, .node .AlterVectorIndexStatement .k_trailing_label])
theorem w3_11_ok : shows w3_11 = true := by decide +kernel

def w3_12 : String × List Deviation := ("l: CASE WHEN true THEN ELSE END CASE l",
  [.node .CaseStatement .k_colon, .node .CaseStatement .k_leading_label, .node .CaseStatement .k_trailing_label])
theorem w3_12_ok : shows w3_12 = true := by decide +kernel

def w3_13 : String × List Deviation := ("l: ALTER BI_CAPACITY a SET OPTIONS() l",
  [.node .AlterBICapacityStatement .k_colon, .node .AlterBICapacityStatement .k_leading_label, .node .AlterBICapacityStatement .k_trailing_label])
theorem w3_13_ok : shows w3_13 = true := by decide +kernel

def w3_14 : String × List Deviation := ("l: ALTER RESERVATION a SET OPTIONS() l",
  [.node .AlterReservationStatement .k_colon, .node .AlterReservationStatement .k_leading_label, .node .AlterReservationStatement .k_trailing_label])
theorem w3_14_ok : shows w3_14 = true := by decide +kernel

def w3_15 : String × List Deviation := ("l: CREATE MATERIALIZED VIEW ident1\nAS REPLICA OF ident2 l",
  [.node .CreateViewStatement .k_colon, .node .CreateViewStatement .k_leading_label, .node .CreateViewStatement .k_trailing_label])
theorem w3_15_ok : shows w3_15 = true := by decide +kernel

def w3_16 : String × List Deviation := ("SELECT {a} AS 1, -a AS 1",
  [.child .Template .k_alias, .missing .Template .k_with_offset, .child .UnaryOperator .k_alias])
theorem w3_16_ok : shows w3_16 = true := by decide +kernel

def w3_17 : String × List Deviation := ("l: CREATE SEARCH INDEX new_index ON tablename(ALL COLUMNS) l",
  [.node .CreateIndexStatement .k_colon, .node .CreateIndexStatement .k_leading_label, .node .CreateIndexStatement .k_trailing_label])
theorem w3_17_ok : shows w3_17 = true := by decide +kernel

def w3_18 : String × List Deviation := ("FROM a + 1 MATCH_RECOGNIZE ()",
  [.node .BinaryOperator .k_match_recognize, .missing .MatchRecognizeConfig .k_pattern])
theorem w3_18_ok : shows w3_18 = true := by decide +kernel

def w3_19 : String × List Deviation := ("FROM t UNPIVOT(a FOR b IN (NULL 1, 1 1, @a 1, RANGE<DATE> '1' 1, 'a' 1, STRUCT() 1, {a} 1, -a 1))",
  [.node .NullLiteral .k_row_value_alias, .node .NumericLiteral .k_row_value_alias, .node .Parameter .k_row_value_alias, .node .RangeLiteral .k_row_value_alias, .node .StringLiteral .k_row_value_alias, .node .StructLiteral .k_row_value_alias, .node .Template .k_row_value_alias, .node .UnaryOperator .k_row_value_alias, .missing .UnpivotOperator .k_include_or_exclude_nulls])
theorem w3_19_ok : shows w3_19 = true := by decide +kernel

def w3_20 : String × List Deviation := ("l: CREATE PROCEDURE dataset.procede() BEGIN SELECT 1; END l",
  [.node .CreateProcedureStatement .k_colon, .node .CreateProcedureStatement .k_leading_label, .node .CreateProcedureStatement .k_trailing_label])
theorem w3_20_ok : shows w3_20 = true := by decide +kernel

def w3_21 : String × List Deviation := ("SELECT WITH(GROUP AS 1, a)",
  [.node .Unknown .k_as, .node .Unknown .k_comma])
theorem w3_21_ok : shows w3_21 = true := by decide +kernel

def w3_22 : String × List Deviation := ("SELECT 1 FROM f(1) DESC NULLS FIRST",
  [.vec .CallingTableFunction .k_null_order, .node .CallingTableFunction .k_order])
theorem w3_22_ok : shows w3_22 = true := by decide +kernel

def w3_23 : String × List Deviation := ("FROM a + 1 FOR SYSTEM_TIME AS OF 1 WITH OFFSET",
  [.node .BinaryOperator .k_for_system_time_as_of, .node .BinaryOperator .k_with_offset])
theorem w3_23_ok : shows w3_23 = true := by decide +kernel

def w3_24 : String × List Deviation := ("FROM a IN () FOR SYSTEM_TIME AS OF 1 WITH OFFSET",
  [.node .InOperator .k_for_system_time_as_of, .node .InOperator .k_with_offset])
theorem w3_24_ok : shows w3_24 = true := by decide +kernel

def w3_25 : String × List Deviation := ("FROM a IS DISTINCT FROM 1 FOR SYSTEM_TIME AS OF 1 WITH OFFSET",
  [.node .IsDistinctFromOperator .k_for_system_time_as_of, .node .IsDistinctFromOperator .k_with_offset])
theorem w3_25_ok : shows w3_25 = true := by decide +kernel

def w3_26 : String × List Deviation := ("FROM f()[0] FOR SYSTEM_TIME AS OF 1 WITH OFFSET",
  [.node .AccessOperator .k_for_system_time_as_of, .node .AccessOperator .k_with_offset])
theorem w3_26_ok : shows w3_26 = true := by decide +kernel

def w3_27 : String × List Deviation := ("FROM (SELECT 1) |> DISTINCT FOR SYSTEM_TIME AS OF 1 WITH OFFSET",
  [.node .PipeStatement .k_for_system_time_as_of, .node .PipeStatement .k_with_offset])
theorem w3_27_ok : shows w3_27 = true := by decide +kernel

def w3_28 : String × List Deviation := ("FROM (SELECT 1) FOR SYSTEM_TIME AS OF 1 TABLESAMPLE SYSTEM (1 PERCENT)",
  [.node .GroupedStatement .k_for_system_time_as_of, .node .GroupedStatement .k_tablesample])
theorem w3_28_ok : shows w3_28 = true := by decide +kernel

def w3_29 : String × List Deviation := ("SELECT 1 FROM -a AS x",
  [.missing .MultiTokenIdentifier .k_with_offset])
theorem w3_29_ok : shows w3_29 = true := by decide +kernel

def w3_30 : String × List Deviation := ("SELECT f(WITH a AS (SELECT 1) FROM t x DESC NULLS FIRST, 2)",
  [.vec .FromStatement .k_null_order, .node .FromStatement .k_order])
theorem w3_30_ok : shows w3_30 = true := by decide +kernel

def w3_31 : String × List Deviation := ("SELECT -- c\n GROUP -- d\n",
  [.vec .Unknown .k_trailing_comments])
theorem w3_31_ok : shows w3_31 = true := by decide +kernel

def w3_32 : String × List Deviation := ("l: SELECT 1\nFROM t1 AS t l",
  [.node .SelectStatement .k_trailing_label])
theorem w3_32_ok : shows w3_32 = true := by decide +kernel

def w3_33 : String × List Deviation := ("FROM a IS DISTINCT FROM 1 MATCH_RECOGNIZE ()",
  [.node .IsDistinctFromOperator .k_match_recognize])
theorem w3_33_ok : shows w3_33 = true := by decide +kernel

def w3_34 : String × List Deviation := ("SELECT 1 FROM UNNEST IS DISTINCT FROM 1 WITH OFFSET",
  [.node .CallingUnnest .k_from])
theorem w3_34_ok : shows w3_34 = true := by decide +kernel

def w3_35 : String × List Deviation := ("SELECT 1 FROM a + 1 TABLESAMPLE SYSTEM (1 PERCENT)",
  [.node .BinaryOperator .k_tablesample])
theorem w3_35_ok : shows w3_35 = true := by decide +kernel

def w3_36 : String × List Deviation := ("SELECT 1 FROM f(1) TABLESAMPLE SYSTEM (1 PERCENT)",
  [.node .CallingTableFunction .k_tablesample])
theorem w3_36_ok : shows w3_36 = true := by decide +kernel

def w3_37 : String × List Deviation := ("FROM a + 1 UNPIVOT(a FOR b IN ())",
  [.node .BinaryOperator .k_unpivot])
theorem w3_37_ok : shows w3_37 = true := by decide +kernel

def w3_38 : String × List Deviation := ("SELECT 1 FROM a IS DISTINCT FROM 1 TABLESAMPLE SYSTEM (1 PERCENT)",
  [.node .IsDistinctFromOperator .k_tablesample])
theorem w3_38_ok : shows w3_38 = true := by decide +kernel

def w3_39 : String × List Deviation := ("FROM f()[0] WITH OFFSET TABLESAMPLE SYSTEM (1 PERCENT)",
  [.node .AccessOperator .k_tablesample])
theorem w3_39_ok : shows w3_39 = true := by decide +kernel

def w3_40 : String × List Deviation := ("FROM a IS DISTINCT FROM 1 PIVOT(a FOR b IN ())",
  [.node .IsDistinctFromOperator .k_pivot])
theorem w3_40_ok : shows w3_40 = true := by decide +kernel

def w3_41 : String × List Deviation := ("FROM f()[0] UNPIVOT(a FOR b IN ())",
  [.node .AccessOperator .k_unpivot])
theorem w3_41_ok : shows w3_41 = true := by decide +kernel

def w3_42 : String × List Deviation := ("FROM (SELECT 1) |> DISTINCT PIVOT(a FOR b IN ())",
  [.node .PipeStatement .k_pivot])
theorem w3_42_ok : shows w3_42 = true := by decide +kernel

def w3_43 : String × List Deviation := ("FROM t UNPIVOT(a FOR b IN (SELECT 1 FROM t WHERE a 1))",
  [.node .SelectStatement .k_row_value_alias])
theorem w3_43_ok : shows w3_43 = true := by decide +kernel

def w3_44 : String × List Deviation := ("FROM t UNPIVOT(a FOR b IN (WITH a AS (SELECT 1) (SELECT 1) 1))",
  [.node .GroupedStatement .k_row_value_alias])
theorem w3_44_ok : shows w3_44 = true := by decide +kernel

/-- All witnesses of this file. -/
def witnesses3 : List (String × List Deviation) := [
  w3_0,
  w3_1,
  w3_2,
  w3_3,
  w3_4,
  w3_5,
  w3_6,
  w3_7,
  w3_8,
  w3_9,
  w3_10,
  w3_11,
  w3_12,
  w3_13,
  w3_14,
  w3_15,
  w3_16,
  w3_17,
  w3_18,
  w3_19,
  w3_20,
  w3_21,
  w3_22,
  w3_23,
  w3_24,
  w3_25,
  w3_26,
  w3_27,
  w3_28,
  w3_29,
  w3_30,
  w3_31,
  w3_32,
  w3_33,
  w3_34,
  w3_35,
  w3_36,
  w3_37,
  w3_38,
  w3_39,
  w3_40,
  w3_41,
  w3_42,
  w3_43,
  w3_44]

theorem witnesses3_ok : ∀ w ∈ witnesses3, shows w = true := by
  simp only [witnesses3, List.forall_mem_cons]
  exact ⟨w3_0_ok, w3_1_ok, w3_2_ok, w3_3_ok, w3_4_ok, w3_5_ok, w3_6_ok, w3_7_ok, w3_8_ok, w3_9_ok, w3_10_ok, w3_11_ok, w3_12_ok, w3_13_ok, w3_14_ok, w3_15_ok, w3_16_ok, w3_17_ok, w3_18_ok, w3_19_ok, w3_20_ok, w3_21_ok, w3_22_ok, w3_23_ok, w3_24_ok, w3_25_ok, w3_26_ok, w3_27_ok, w3_28_ok, w3_29_ok, w3_30_ok, w3_31_ok, w3_32_ok, w3_33_ok, w3_34_ok, w3_35_ok, w3_36_ok, w3_37_ok, w3_38_ok, w3_39_ok, w3_40_ok, w3_41_ok, w3_42_ok, w3_43_ok, w3_44_ok, by simp⟩

end Verif.Dev
