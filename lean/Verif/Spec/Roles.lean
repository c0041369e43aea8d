import Verif.Spec.Role
/-! Generated by tools/GenTable.lean.txt: the roles of children. -/
namespace Verif.Spec

/-- Roles that do not depend on the type of the parent. -/
def everywhere : List Role := [
  { key := .k_clusterby, types := some [.XXXByExprs], tokens := some [.CLUSTER] },
  { key := .k_colon, types := some [.Symbol] },
  { key := .k_comma, types := some [.Symbol], tokens := some [.sym_comma] },
  { key := .k_condition, without := [.k_alias, .k_as, .k_comma] },
  { key := .k_default_collate, types := some [.KeywordSequence], tokens := some [.DEFAULT], each := [{ type := .KeywordSequence, has := [.k_next_keyword] }] },
  { key := .k_for_system_time_as_of, types := some [.ForSystemTimeAsOfClause], tokens := some [.FOR] },
  { key := .k_func, without := [.k_alias, .k_as, .k_comma, .k_null_order, .k_order] },
  { key := .k_if_not_exists, types := some [.Keyword] },
  { key := .k_ignore_nulls, types := some [.Keyword] },
  { key := .k_in, types := some [.KeywordWithGroupedXXX] },
  { key := .k_leading_label, types := some [.Identifier], without := [.k_alias, .k_as, .k_comma, .k_null_order, .k_order] },
  { key := .k_match_recognize, types := some [.MatchRecognizeClause], tokens := some [.MATCH_RECOGNIZE] },
  { key := .k_materialized, types := some [.Keyword], tokens := some [.MATERIALIZED] },
  { key := .k_not, types := some [.Keyword], tokens := some [.NOT] },
  { key := .k_null_order, types := some [.Keyword] },
  { key := .k_or_replace, types := some [.Keyword] },
  { key := .k_order, types := some [.Keyword], tokens := some [.ASC, .DESC] },
  { key := .k_orderby, types := some [.XXXByExprs], tokens := some [.ORDER] },
  { key := .k_over, types := some [.OverClause], tokens := some [.OVER] },
  { key := .k_partitionby, types := some [.XXXByExprs], tokens := some [.PARTITION] },
  { key := .k_pivot, types := some [.PivotOperator], tokens := some [.PIVOT] },
  { key := .k_semicolon, types := some [.Symbol], tokens := some [.sym_semi] },
  { key := .k_stmts, without := [.k_alias, .k_comma, .k_null_order, .k_order, .k_over], each := [{ type := .SingleTokenStatement, tokens := some [.RETURN] }] },
  { key := .k_tablesample, types := some [.TableSampleClause], tokens := some [.TABLESAMPLE] },
  { key := .k_trailing_label, types := some [.Identifier], without := [.k_alias, .k_as, .k_comma, .k_null_order, .k_order] },
  { key := .k_unpivot, types := some [.UnpivotOperator], tokens := some [.UNPIVOT] },
  { key := .k_with_connection, types := some [.KeywordSequence], tokens := some [.WITH], each := [{ type := .KeywordSequence, has := [.k_next_keyword] }] },
  { key := .k_with_offset, types := some [.WithOffsetClause], tokens := some [.WITH] }]

/-- The other roles of the children of each type of nodes. -/
def roles : NodeType → List Role
  | .AccessOperator => [
    { key := .k_alias, without := [.k_alias, .k_as, .k_comma, .k_null_order, .k_order] },
    { key := .k_as, types := some [.Keyword], tokens := some [.AS] },
    { key := .k_left, without := [.k_alias, .k_as, .k_comma, .k_null_order, .k_order] },
    { key := .k_right, without := [.k_alias, .k_as, .k_comma] },
    { key := .k_row_value_alias, without := [.k_alias, .k_as, .k_comma] },
    { key := .k_rparen, types := some [.Symbol] }]
  | .AddColumnClause => [
    { key := .k_type_declaration, types := some [.TypeDeclaration], without := [.k_comma] },
    { key := .k_what, types := some [.Keyword] }]
  | .AddConstraintClause => [
    { key := .k_what, types := some [.Constraint], without := [.k_comma] }]
  | .AggregatePipeOperator => [
    { key := .k_groupby, types := some [.GroupByExprs], tokens := some [.GROUP] },
    { key := .k_keywords, types := some [] }]
  | .AlterColumnStatement => [
    { key := .k_data_type, types := some [.Keyword] },
    { key := .k_default, types := some [.KeywordWithExpr] },
    { key := .k_drop_default, types := some [.Keyword] },
    { key := .k_drop_not_null, types := some [.Keyword] },
    { key := .k_ident, types := some [.Identifier], without := [.k_alias, .k_as, .k_comma, .k_null_order, .k_order] },
    { key := .k_if_exists, types := some [.Keyword] },
    { key := .k_options, types := some [.KeywordWithGroupedXXX], tokens := some [.OPTIONS] },
    { key := .k_set, types := some [.Keyword], tokens := some [.SET] },
    { key := .k_type, types := some [.Type] },
    { key := .k_what, types := some [.Keyword] }]
  | .AlterBICapacityStatement => [
    { key := .k_ident, types := some [.DotOperator, .Identifier, .MultiTokenIdentifier], without := [.k_alias, .k_as, .k_comma, .k_null_order, .k_order] },
    { key := .k_options, types := some [.KeywordWithGroupedXXX] },
    { key := .k_set, types := some [.Keyword] },
    { key := .k_what, types := some [.Keyword] }]
  | .AlterModelStatement => [
    { key := .k_ident, types := some [.DotOperator, .Identifier, .MultiTokenIdentifier], without := [.k_alias, .k_as, .k_comma, .k_null_order, .k_order] },
    { key := .k_if_exists, types := some [.Keyword] },
    { key := .k_options, types := some [.KeywordWithGroupedXXX] },
    { key := .k_set, types := some [.Keyword] },
    { key := .k_what, types := some [.Keyword] }]
  | .AlterOrganizationStatement => [
    { key := .k_options, types := some [.KeywordWithGroupedXXX] },
    { key := .k_set, types := some [.Keyword] },
    { key := .k_what, types := some [.Keyword] }]
  | .AlterTableDropClause => [
    { key := .k_ident, types := some [.DotOperator, .Identifier, .MultiTokenIdentifier], without := [.k_alias, .k_as, .k_comma, .k_null_order, .k_order] },
    { key := .k_if_exists, types := some [.Keyword] },
    { key := .k_what, types := some [.Keyword, .KeywordWithExpr], each := [{ type := .KeywordWithExpr, tokens := some [.PRIMARY] }] }]
  | .AlterProjectStatement => [
    { key := .k_ident, types := some [.DotOperator, .Identifier, .MultiTokenIdentifier], without := [.k_alias, .k_as, .k_comma, .k_null_order, .k_order] },
    { key := .k_options, types := some [.KeywordWithGroupedXXX] },
    { key := .k_set, types := some [.Keyword] },
    { key := .k_what, types := some [.Keyword] }]
  | .AlterReservationStatement => [
    { key := .k_ident, types := some [.DotOperator, .Identifier, .MultiTokenIdentifier], without := [.k_alias, .k_as, .k_comma, .k_null_order, .k_order] },
    { key := .k_options, types := some [.KeywordWithGroupedXXX] },
    { key := .k_set, types := some [.Keyword] },
    { key := .k_what, types := some [.Keyword] }]
  | .AlterSchemaStatement => [
    { key := .k_add, types := some [.KeywordSequence], tokens := some [.ADD], each := [{ type := .KeywordSequence, has := [.k_next_keyword] }] },
    { key := .k_drop, types := some [.KeywordSequence], tokens := some [.DROP], each := [{ type := .KeywordSequence, has := [.k_next_keyword] }] },
    { key := .k_ident, types := some [.DotOperator, .Identifier, .MultiTokenIdentifier], without := [.k_alias, .k_as, .k_comma, .k_null_order, .k_order] },
    { key := .k_if_exists, types := some [.Keyword] },
    { key := .k_options, types := some [.KeywordWithGroupedXXX], tokens := some [.OPTIONS] },
    { key := .k_set, types := some [.Keyword], tokens := some [.SET] },
    { key := .k_what, types := some [.Keyword] }]
  | .AlterTableStatement => [
    { key := .k_add_columns, types := some [.AddColumnClause], tokens := some [.ADD] },
    { key := .k_add_constraints, types := some [.AddConstraintClause], tokens := some [.ADD], each := [{ type := .AddConstraintClause, has := [.k_what] }] },
    { key := .k_alter_column_stmt, types := some [.AlterColumnStatement], tokens := some [.ALTER], without := [.k_semicolon] },
    { key := .k_drop_columns, types := some [.AlterTableDropClause], tokens := some [.DROP] },
    { key := .k_ident, types := some [.DotOperator, .Identifier, .MultiTokenIdentifier], without := [.k_alias, .k_as, .k_comma, .k_null_order, .k_order] },
    { key := .k_if_exists, types := some [.Keyword] },
    { key := .k_options, types := some [.KeywordWithGroupedXXX], tokens := some [.OPTIONS] },
    { key := .k_rename, types := some [.Keyword], tokens := some [.RENAME] },
    { key := .k_rename_columns, types := some [.RenameColumnClause], tokens := some [.RENAME] },
    { key := .k_set, types := some [.Keyword], tokens := some [.SET] },
    { key := .k_to, types := some [.KeywordWithExpr] },
    { key := .k_what, types := some [.Keyword] }]
  | .AlterVectorIndexStatement => [
    { key := .k_ident, types := some [.DotOperator, .Identifier, .MultiTokenIdentifier], without := [.k_alias, .k_as, .k_comma, .k_null_order, .k_order] },
    { key := .k_if_exists, types := some [.Keyword] },
    { key := .k_on, types := some [.KeywordWithExpr] },
    { key := .k_operation, types := some [.Keyword] },
    { key := .k_what, types := some [.KeywordSequence], each := [{ type := .KeywordSequence, has := [.k_next_keyword] }] }]
  | .AlterViewStatement => [
    { key := .k_alter_column_stmt, types := some [.AlterColumnStatement], tokens := some [.ALTER], without := [.k_semicolon] },
    { key := .k_ident, types := some [.DotOperator, .Identifier, .MultiTokenIdentifier], without := [.k_alias, .k_as, .k_comma, .k_null_order, .k_order] },
    { key := .k_if_exists, types := some [.Keyword] },
    { key := .k_options, types := some [.KeywordWithGroupedXXX] },
    { key := .k_set, types := some [.Keyword] },
    { key := .k_what, types := some [.Keyword] }]
  | .ArrayLiteral => [
    { key := .k_alias, without := [.k_alias, .k_as, .k_comma, .k_null_order, .k_order] },
    { key := .k_as, types := some [.Keyword], tokens := some [.AS] },
    { key := .k_row_value_alias, notParent := [.REFERENCES], without := [.k_alias, .k_as, .k_comma] },
    { key := .k_row_value_alias, parent := some [.REFERENCES], without := [.k_alias, .k_as, .k_comma], each := [{ type := .FromStatement, has := [.k_with] }] },
    { key := .k_rparen, types := some [.Symbol] },
    { key := .k_type, types := some [.Type] }]
  | .AssertStatement => [
    { key := .k_as, types := some [.Keyword], tokens := some [.AS] },
    { key := .k_description, without := [.k_alias, .k_as, .k_comma] },
    { key := .k_expr, without := [.k_alias, .k_as, .k_comma] }]
  | .Asterisk => [
    { key := .k_alias, without := [.k_alias, .k_as, .k_comma, .k_null_order, .k_order] },
    { key := .k_as, types := some [.Keyword], tokens := some [.AS] },
    { key := .k_except, types := some [.KeywordWithGroupedXXX], tokens := some [.EXCEPT] },
    { key := .k_replace, types := some [.KeywordWithGroupedXXX], tokens := some [.REPLACE] },
    { key := .k_row_value_alias, without := [.k_alias, .k_as, .k_comma] }]
  | .BasePipeOperator => [
    { key := .k_keywords, types := some [.Keyword] }]
  | .BinaryOperator => [
    { key := .k_alias, without := [.k_alias, .k_as, .k_comma, .k_null_order, .k_order] },
    { key := .k_as, types := some [.Keyword], tokens := some [.AS] },
    { key := .k_quantifier, types := some [.Keyword], tokens := some [.ALL, .ANY, .SOME] },
    { key := .k_right, without := [.k_alias, .k_as, .k_comma] },
    { key := .k_row_value_alias, without := [.k_alias, .k_as, .k_comma] }]
  | .BeginStatement => [
    { key := .k_end, types := some [.Keyword] },
    { key := .k_exception_when_error, types := some [.Keyword] },
    { key := .k_then, types := some [.KeywordWithStatements] }]
  | .BetweenOperator => [
    { key := .k_alias, without := [.k_alias, .k_as, .k_comma, .k_null_order, .k_order] },
    { key := .k_and, types := some [.Keyword] },
    { key := .k_as, types := some [.Keyword], tokens := some [.AS] },
    { key := .k_right_max, without := [.k_alias, .k_as, .k_comma] },
    { key := .k_right_min, without := [.k_alias, .k_as, .k_comma] },
    { key := .k_row_value_alias, without := [.k_alias, .k_as, .k_comma] }]
  | .BooleanLiteral => [
    { key := .k_alias, without := [.k_alias, .k_as, .k_comma, .k_null_order, .k_order] },
    { key := .k_as, types := some [.Keyword], tokens := some [.AS] },
    { key := .k_right, without := [.k_alias, .k_as, .k_comma] },
    { key := .k_row_value_alias, without := [.k_alias, .k_as, .k_comma] }]
  | .BreakContinueStatement => [
    { key := .k_label, types := some [.Identifier], without := [.k_alias, .k_as, .k_comma, .k_null_order, .k_order] }]
  | .CallingFunction => [
    { key := .k_alias, without := [.k_alias, .k_as, .k_comma, .k_null_order, .k_order] },
    { key := .k_as, types := some [.Keyword], tokens := some [.AS] },
    { key := .k_distinct, types := some [.Keyword], tokens := some [.DISTINCT] },
    { key := .k_having, types := some [.KeywordSequence], tokens := some [.HAVING], each := [{ type := .KeywordSequence, has := [.k_next_keyword] }] },
    { key := .k_limit, types := some [.KeywordWithExpr], tokens := some [.LIMIT] },
    { key := .k_row_value_alias, without := [.k_alias, .k_as, .k_comma] },
    { key := .k_rparen, types := some [.Symbol] }]
  | .CallingTableFunction => [
    { key := .k_alias, types := some [.Identifier], without := [.k_alias, .k_as, .k_comma, .k_null_order, .k_order] },
    { key := .k_as, types := some [.Keyword], tokens := some [.AS] },
    { key := .k_distinct, types := some [.Keyword], tokens := some [.DISTINCT] },
    { key := .k_having, types := some [.KeywordSequence], tokens := some [.HAVING], each := [{ type := .KeywordSequence, has := [.k_next_keyword] }] },
    { key := .k_limit, types := some [.KeywordWithExpr], tokens := some [.LIMIT] },
    { key := .k_rparen, types := some [.Symbol] }]
  | .CallingUnnest => [
    { key := .k_alias, types := some [.Identifier], without := [.k_alias, .k_as, .k_comma, .k_null_order, .k_order] },
    { key := .k_and, types := some [.Keyword] },
    { key := .k_as, types := some [.Keyword], tokens := some [.AS] },
    { key := .k_distinct, parent := some [.sym_lparen], types := some [.Keyword], tokens := some [.DISTINCT] },
    { key := .k_distinct, parent := some [.IS], types := some [.Keyword] },
    { key := .k_from, types := some [.Keyword] },
    { key := .k_having, types := some [.KeywordSequence], tokens := some [.HAVING], each := [{ type := .KeywordSequence, has := [.k_next_keyword] }] },
    { key := .k_left, parent := some [.sym_dot, .sym_lbrack], without := [.k_alias, .k_as, .k_comma, .k_null_order, .k_order] },
    { key := .k_limit, types := some [.KeywordWithExpr], tokens := some [.LIMIT] },
    { key := .k_quantifier, types := some [.Keyword], tokens := some [.ALL, .ANY, .SOME] },
    { key := .k_right, parent := some [.sym_ne, .sym_amp, .sym_star, .sym_plus, .sym_minus, .sym_dot, .sym_slash, .sym_lt, .sym_shl, .sym_le, .sym_ltgt, .sym_eq, .sym_arrow, .sym_gt, .sym_ge, .sym_shr, .AND, .IS, .LIKE, .OR, .sym_lbrack, .sym_caret, .sym_bar, .sym_concat], without := [.k_alias, .k_as, .k_comma] },
    { key := .k_right, parent := some [.IN], types := some [.CallingUnnest, .GroupedExprs, .GroupedStatement], without := [.k_alias, .k_as, .k_comma, .k_semicolon] },
    { key := .k_right_max, without := [.k_alias, .k_as, .k_comma] },
    { key := .k_right_min, without := [.k_alias, .k_as, .k_comma] },
    { key := .k_rparen, types := some [.Symbol] }]
  | .CallStatement => [
    { key := .k_procedure, without := [.k_alias, .k_as, .k_comma] }]
  | .Constraint => [
    { key := .k_columns, types := some [.GroupedExprs], without := [.k_as, .k_comma] },
    { key := .k_constraint, types := some [.Keyword], tokens := some [.CONSTRAINT] },
    { key := .k_enforced, types := some [.Keyword, .KeywordSequence], tokens := some [.ENFORCED, .NOT], each := [{ type := .Keyword, tokens := some [.ENFORCED] }, { type := .KeywordSequence, has := [.k_next_keyword], tokens := some [.NOT] }] },
    { key := .k_ident, types := some [.DotOperator, .Identifier, .MultiTokenIdentifier], without := [.k_alias, .k_as, .k_comma, .k_null_order, .k_order] },
    { key := .k_key, types := some [.Keyword] },
    { key := .k_references, types := some [.KeywordWithExpr], tokens := some [.REFERENCES] }]
  | .CaseExpr => [
    { key := .k_alias, without := [.k_alias, .k_as, .k_comma, .k_null_order, .k_order] },
    { key := .k_arms, types := some [.CaseExprArm], tokens := some [.ELSE, .WHEN] },
    { key := .k_as, types := some [.Keyword], tokens := some [.AS] },
    { key := .k_end, types := some [.Keyword] },
    { key := .k_expr, without := [.k_alias, .k_as, .k_comma] },
    { key := .k_row_value_alias, without := [.k_alias, .k_as, .k_comma] }]
  | .CaseExprArm => [
    { key := .k_expr, without := [.k_alias, .k_as, .k_comma] },
    { key := .k_result, without := [.k_alias, .k_as, .k_comma] },
    { key := .k_then, types := some [.Keyword] }]
  | .CaseStatement => [
    { key := .k_arms, types := some [.CaseStatementArm], tokens := some [.ELSE, .WHEN] },
    { key := .k_end_case, types := some [.Keyword] },
    { key := .k_expr, without := [.k_alias, .k_as, .k_comma] }]
  | .CaseStatementArm => [
    { key := .k_expr, without := [.k_alias, .k_as, .k_comma] },
    { key := .k_then, types := some [.Keyword] }]
  | .CastArgument => [
    { key := .k_cast_from, without := [.k_alias, .k_as, .k_comma] },
    { key := .k_cast_to, types := some [.Type] },
    { key := .k_format, types := some [.KeywordWithExpr], tokens := some [.FORMAT] }]
  | .CreateFunctionStatement => [
    { key := .k_aggregate, types := some [.Keyword], tokens := some [.AGGREGATE] },
    { key := .k_as, types := some [.KeywordWithExpr, .KeywordWithGroupedXXX, .KeywordWithStatement], each := [{ type := .KeywordWithGroupedXXX, tokens := some [.AS] }, { type := .KeywordWithStatement, tokens := some [.AS] }] },
    { key := .k_connection, types := some [.KeywordSequence], each := [{ type := .KeywordSequence, has := [.k_next_keyword] }] },
    { key := .k_determinism, types := some [.Keyword] },
    { key := .k_group, types := some [.GroupedTypeDeclarationOrConstraints] },
    { key := .k_ident, types := some [.DotOperator, .Identifier, .MultiTokenIdentifier], without := [.k_alias, .k_as, .k_comma, .k_null_order, .k_order] },
    { key := .k_language, types := some [.KeywordWithExpr] },
    { key := .k_options, types := some [.KeywordWithGroupedXXX], tokens := some [.OPTIONS] },
    { key := .k_remote, types := some [.Keyword], tokens := some [.REMOTE] },
    { key := .k_returns, types := some [.KeywordWithType], tokens := some [.RETURNS] },
    { key := .k_table, types := some [.Keyword], tokens := some [.TABLE] },
    { key := .k_temp, types := some [.Keyword], tokens := some [.TEMP, .TEMPORARY] },
    { key := .k_what, types := some [.Keyword] }]
  | .CreateIndexStatement => [
    { key := .k_column_group, types := some [.GroupedExpr, .GroupedExprs], without := [.k_alias, .k_as, .k_comma, .k_null_order, .k_order] },
    { key := .k_ident, types := some [.DotOperator, .Identifier, .MultiTokenIdentifier], without := [.k_alias, .k_as, .k_comma, .k_null_order, .k_order] },
    { key := .k_on, types := some [.Keyword] },
    { key := .k_options, types := some [.KeywordWithGroupedXXX], tokens := some [.OPTIONS] },
    { key := .k_storing, types := some [.KeywordWithGroupedXXX], tokens := some [.STORING] },
    { key := .k_tablename, types := some [.DotOperator, .Identifier, .MultiTokenIdentifier], without := [.k_alias, .k_as, .k_comma, .k_null_order, .k_order] },
    { key := .k_what, types := some [.KeywordSequence], each := [{ type := .KeywordSequence, has := [.k_next_keyword] }] }]
  | .CreateModelStatement => [
    { key := .k_ident, types := some [.DotOperator, .Identifier, .MultiTokenIdentifier], without := [.k_alias, .k_as, .k_comma, .k_null_order, .k_order] },
    { key := .k_input, types := some [.KeywordWithGroupedXXX], tokens := some [.INPUT] },
    { key := .k_options, types := some [.KeywordWithGroupedXXX], tokens := some [.OPTIONS] },
    { key := .k_output, types := some [.KeywordWithGroupedXXX], tokens := some [.OUTPUT] },
    { key := .k_query, types := some [.KeywordWithStatement], tokens := some [.AS] },
    { key := .k_remote, types := some [.KeywordSequence], tokens := some [.REMOTE], each := [{ type := .KeywordSequence, has := [.k_next_keyword] }] },
    { key := .k_training_data_custom_holiday, types := some [.KeywordWithGroupedXXX], tokens := some [.AS] },
    { key := .k_transform, types := some [.KeywordWithGroupedXXX] },
    { key := .k_what, types := some [.Keyword] }]
  | .CreateProcedureStatement => [
    { key := .k_as, types := some [.KeywordWithExpr], tokens := some [.AS] },
    { key := .k_external, types := some [.KeywordSequence], tokens := some [.EXTERNAL], each := [{ type := .KeywordSequence, has := [.k_next_keyword] }] },
    { key := .k_group, types := some [.GroupedTypeDeclarationOrConstraints] },
    { key := .k_ident, types := some [.DotOperator, .Identifier, .MultiTokenIdentifier], without := [.k_alias, .k_as, .k_comma, .k_null_order, .k_order] },
    { key := .k_language, types := some [.KeywordWithExpr], tokens := some [.LANGUAGE] },
    { key := .k_options, types := some [.KeywordWithGroupedXXX], tokens := some [.OPTIONS] },
    { key := .k_stmt, types := some [.BeginStatement], tokens := some [.BEGIN], without := [.k_semicolon] },
    { key := .k_what, types := some [.Keyword] }]
  | .CreateReservationStatement => [
    { key := .k_as, types := some [.Keyword], tokens := some [.AS] },
    { key := .k_ident, types := some [.DotOperator, .Identifier, .MultiTokenIdentifier], without := [.k_alias, .k_as, .k_comma, .k_null_order, .k_order] },
    { key := .k_json, types := some [.Keyword] },
    { key := .k_json_string, without := [.k_alias, .k_as, .k_comma] },
    { key := .k_options, types := some [.KeywordWithGroupedXXX], tokens := some [.OPTIONS] },
    { key := .k_what, types := some [.Keyword] }]
  | .CreateRowAccessPolicyStatement => [
    { key := .k_filter, types := some [.Keyword] },
    { key := .k_grant, types := some [.Keyword], tokens := some [.GRANT] },
    { key := .k_ident, types := some [.DotOperator, .Identifier, .MultiTokenIdentifier], without := [.k_alias, .k_as, .k_comma, .k_null_order, .k_order] },
    { key := .k_on, types := some [.KeywordWithExpr] },
    { key := .k_to, types := some [.KeywordWithGroupedXXX] },
    { key := .k_using, types := some [.KeywordWithExpr] },
    { key := .k_what, types := some [.Keyword] }]
  | .CreateSchemaStatement => [
    { key := .k_external, types := some [.Keyword], tokens := some [.EXTERNAL] },
    { key := .k_ident, types := some [.DotOperator, .Identifier, .MultiTokenIdentifier], without := [.k_alias, .k_as, .k_comma, .k_null_order, .k_order] },
    { key := .k_options, types := some [.KeywordWithGroupedXXX], tokens := some [.OPTIONS] },
    { key := .k_what, types := some [.Keyword] }]
  | .CreateTableStatement => [
    { key := .k_as, types := some [.KeywordWithStatement], tokens := some [.AS] },
    { key := .k_clone, types := some [.KeywordWithExpr], tokens := some [.CLONE] },
    { key := .k_column_schema_group, types := some [.GroupedTypeDeclarationOrConstraints] },
    { key := .k_external, types := some [.Keyword], tokens := some [.EXTERNAL] },
    { key := .k_ident, types := some [.DotOperator, .Identifier, .MultiTokenIdentifier], without := [.k_alias, .k_as, .k_comma, .k_null_order, .k_order] },
    { key := .k_like_or_copy, types := some [.Keyword], tokens := some [.COPY, .LIKE] },
    { key := .k_options, types := some [.KeywordWithGroupedXXX], tokens := some [.OPTIONS] },
    { key := .k_snapshot, types := some [.Keyword], tokens := some [.SNAPSHOT] },
    { key := .k_source_table, types := some [.DotOperator, .Identifier, .MultiTokenIdentifier], without := [.k_alias, .k_as, .k_comma, .k_null_order, .k_order] },
    { key := .k_temp, types := some [.Keyword], tokens := some [.TEMP, .TEMPORARY] },
    { key := .k_what, types := some [.Keyword] },
    { key := .k_with_partition_columns, types := some [.WithPartitionColumnsClause], tokens := some [.WITH] }]
  | .CreateViewStatement => [
    { key := .k_as, types := some [.KeywordSequence, .KeywordWithStatement], tokens := some [.AS], each := [{ type := .KeywordSequence, has := [.k_next_keyword] }] },
    { key := .k_column_name_list, types := some [.GroupedIdentWithOptions], tokens := some [.sym_lparen] },
    { key := .k_ident, types := some [.DotOperator, .Identifier, .MultiTokenIdentifier], without := [.k_alias, .k_as, .k_comma, .k_null_order, .k_order] },
    { key := .k_options, types := some [.KeywordWithGroupedXXX], tokens := some [.OPTIONS] },
    { key := .k_what, types := some [.Keyword] }]
  | .DeclareStatement => [
    { key := .k_default, types := some [.KeywordWithExpr], tokens := some [.DEFAULT] },
    { key := .k_idents, types := some [.DotOperator, .Identifier, .MultiTokenIdentifier], without := [.k_alias, .k_as, .k_null_order, .k_order] },
    { key := .k_variable_type, types := some [.Type] }]
  | .DeleteStatement => [
    { key := .k_from, types := some [.Keyword], tokens := some [.FROM] },
    { key := .k_table_name, types := some [.DotOperator, .Identifier, .MultiTokenIdentifier], without := [.k_comma, .k_null_order, .k_order] },
    { key := .k_where, types := some [.KeywordWithExpr] }]
  | .DifferentialPrivacyClause => [
    { key := .k_differential_privacy, types := some [.Keyword] },
    { key := .k_options, types := some [.KeywordWithGroupedXXX], tokens := some [.OPTIONS] }]
  | .DotOperator => [
    { key := .k_alias, without := [.k_alias, .k_as, .k_comma, .k_null_order, .k_order] },
    { key := .k_as, types := some [.Keyword], tokens := some [.AS] },
    { key := .k_left, without := [.k_alias, .k_as, .k_comma, .k_null_order, .k_order] },
    { key := .k_right, without := [.k_alias, .k_as, .k_comma], each := [{ type := .StructLiteral, has := [.k_type] }] },
    { key := .k_row_value_alias, without := [.k_alias, .k_as, .k_comma] }]
  | .DropStatement => [
    { key := .k_cascade_or_restrict, types := some [.Keyword], tokens := some [.CASCADE, .RESTRICT] },
    { key := .k_external, types := some [.Keyword], tokens := some [.EXTERNAL] },
    { key := .k_ident, types := some [.DotOperator, .Identifier, .MultiTokenIdentifier], without := [.k_alias, .k_as, .k_comma, .k_null_order, .k_order] },
    { key := .k_if_exists, types := some [.Keyword] },
    { key := .k_on, types := some [.KeywordWithExpr], tokens := some [.ON] },
    { key := .k_table, types := some [.Keyword], tokens := some [.TABLE] },
    { key := .k_what, types := some [.Keyword, .KeywordSequence], each := [{ type := .KeywordSequence, has := [.k_next_keyword], tokens := some [.SEARCH] }] }]
  | .DropRowAccessPolicyStatement => [
    { key := .k_ident, types := some [.DotOperator, .Identifier, .MultiTokenIdentifier], without := [.k_alias, .k_as, .k_comma, .k_null_order, .k_order] },
    { key := .k_if_exists, types := some [.Keyword] },
    { key := .k_on, types := some [.KeywordWithExpr] },
    { key := .k_what, types := some [.Keyword] }]
  | .ElseIfClause => [
    { key := .k_then, types := some [.KeywordWithStatements] }]
  | .EmptyStruct => [
    { key := .k_alias, without := [.k_alias, .k_as, .k_comma, .k_null_order, .k_order] },
    { key := .k_as, types := some [.Keyword], tokens := some [.AS] },
    { key := .k_rparen, types := some [.Symbol], tokens := some [.sym_rparen] }]
  | .ExecuteStatement => [
    { key := .k_immediate, types := some [.Keyword] },
    { key := .k_into, types := some [.KeywordWithExprs], tokens := some [.INTO] },
    { key := .k_sql_expr, without := [.k_alias, .k_as, .k_comma] },
    { key := .k_using, types := some [.KeywordWithExprs], tokens := some [.USING] }]
  | .ExportDataStatement => [
    { key := .k_as, types := some [.KeywordWithStatement] },
    { key := .k_data, types := some [.Keyword] },
    { key := .k_options, types := some [.KeywordWithGroupedXXX] }]
  | .ExportModelStatement => [
    { key := .k_ident, types := some [.DotOperator, .Identifier, .MultiTokenIdentifier], without := [.k_alias, .k_as, .k_comma, .k_null_order, .k_order] },
    { key := .k_options, types := some [.KeywordWithGroupedXXX], tokens := some [.OPTIONS] },
    { key := .k_what, types := some [.Keyword] }]
  | .ExtractArgument => [
    { key := .k_at_time_zone, types := some [.Keyword] },
    { key := .k_extract_datepart, without := [.k_alias, .k_as, .k_comma] },
    { key := .k_extract_from, without := [.k_alias, .k_as, .k_comma] },
    { key := .k_time_zone, without := [.k_alias, .k_as, .k_comma] }]
  | .ForSystemTimeAsOfClause => [
    { key := .k_expr, without := [.k_alias, .k_as, .k_comma] },
    { key := .k_system_time_as_of, types := some [.Keyword] }]
  | .ForStatement => [
    { key := .k_do, types := some [.KeywordWithStatements] },
    { key := .k_end_for, types := some [.Keyword] },
    { key := .k_ident, types := some [.Identifier], without := [.k_alias, .k_as, .k_comma, .k_null_order, .k_order] }]
  | .FromStatement => [
    { key := .k_alias, without := [.k_alias, .k_as, .k_comma, .k_null_order, .k_order] },
    { key := .k_as, types := some [.Keyword], tokens := some [.AS] },
    { key := .k_expr, without := [.k_comma] },
    { key := .k_row_value_alias, without := [.k_alias, .k_as, .k_comma], each := [{ type := .FromStatement, has := [.k_with] }] },
    { key := .k_with, types := some [.WithClause], tokens := some [.WITH] }]
  | .FunctionChain => [
    { key := .k_alias, without := [.k_alias, .k_as, .k_comma, .k_null_order, .k_order] },
    { key := .k_as, types := some [.Keyword], tokens := some [.AS] },
    { key := .k_left, without := [.k_alias, .k_as, .k_comma, .k_null_order, .k_order] },
    { key := .k_right, without := [.k_alias, .k_as, .k_comma] },
    { key := .k_row_value_alias, without := [.k_alias, .k_as, .k_comma] }]
  | .GrantStatement => [
    { key := .k_ident, types := some [.DotOperator, .Identifier, .MultiTokenIdentifier], without := [.k_alias, .k_as, .k_comma, .k_null_order, .k_order] },
    { key := .k_on, types := some [.Keyword] },
    { key := .k_resource_type, types := some [.Keyword] },
    { key := .k_to, types := some [.KeywordWithExprs] }]
  | .GroupByExprs => [
    { key := .k_by, types := some [.Keyword] },
    { key := .k_how, types := some [.Keyword] }]
  | .GroupedIdentWithOptions => [
    { key := .k_idents, types := some [.IdentWithOptions] },
    { key := .k_rparen, types := some [.Symbol], tokens := some [.sym_rparen] }]
  | .GroupedExpr => [
    { key := .k_alias, without := [.k_alias, .k_as, .k_comma, .k_null_order, .k_order] },
    { key := .k_as, types := some [.Keyword], tokens := some [.AS] },
    { key := .k_expr, notParent := [.sym_lparen], without := [.k_alias, .k_as, .k_comma] },
    { key := .k_rparen, types := some [.Symbol] }]
  | .GroupedExprs => [
    { key := .k_as, types := some [.Keyword], tokens := some [.AS] },
    { key := .k_row_value_alias, without := [.k_alias, .k_as, .k_comma] },
    { key := .k_rparen, types := some [.Symbol] }]
  | .GroupedPattern => [
    { key := .k_patterns, types := some [.GroupedPattern, .OrPattern, .Pattern] },
    { key := .k_rparen, types := some [.Symbol], tokens := some [.sym_rparen] },
    { key := .k_suffixes, types := some [.PatternQuantifier, .Symbol], tokens := some [.sym_star, .sym_plus, .sym_quest, .sym_lbrace], each := [{ type := .Symbol, tokens := some [.sym_star, .sym_plus, .sym_quest] }] }]
  | .GroupedStatement => [
    { key := .k_alias, without := [.k_alias, .k_as, .k_comma, .k_null_order, .k_order] },
    { key := .k_as, types := some [.Keyword], tokens := some [.AS] },
    { key := .k_limit, types := some [.LimitClause], tokens := some [.LIMIT] },
    { key := .k_row_value_alias, without := [.k_alias, .k_as, .k_comma] },
    { key := .k_rparen, notParent := [.UNNEST], types := some [.Symbol] },
    { key := .k_rparen, parent := some [.UNNEST], types := some [.Symbol], tokens := some [.sym_rparen] },
    { key := .k_stmt, types := some [.FromStatement, .GroupedStatement, .PipeStatement, .SelectStatement, .SetOperator], without := [.k_alias, .k_as, .k_comma, .k_null_order, .k_order] },
    { key := .k_with, types := some [.WithClause], tokens := some [.WITH] }]
  | .GroupedType => [
    { key := .k_rparen, types := some [.Symbol] },
    { key := .k_type, types := some [.Type] }]
  | .GroupedTypeDeclarationOrConstraints => [
    { key := .k_declarations, types := some [.Constraint, .TypeDeclaration] },
    { key := .k_rparen, types := some [.Symbol], tokens := some [.sym_rparen, .sym_gt] }]
  | .KeywordSequence => [
    { key := .k_next_keyword, types := some [.Keyword, .KeywordSequence, .KeywordWithExpr, .KeywordWithGroupedXXX], each := [{ type := .KeywordWithGroupedXXX, tokens := some [.BY, .ON] }] }]
  | .KeywordWithExpr => [
    { key := .k_expr, notParent := [.sym_comma, .CROSS, .FULL, .INNER, .JOIN, .LEFT, .RIGHT], without := [.k_comma] },
    { key := .k_expr, parent := some [.sym_comma, .CROSS, .FULL, .INNER, .JOIN, .LEFT, .RIGHT], without := [.k_alias, .k_as, .k_comma] }]
  | .KeywordWithType => [
    { key := .k_type, types := some [.Type] }]
  | .KeywordWithGroupedXXX => [
    { key := .k_group, parent := some [.AS], types := some [.FromStatement, .GroupedExpr, .GroupedExprs, .GroupedStatement, .PipeStatement, .SelectStatement, .SetOperator, .TrainingDataCustomHolidayClause], without := [.k_alias, .k_as, .k_comma, .k_null_order, .k_order], each := [{ type := .FromStatement, has := [.k_with] }] },
    { key := .k_group, parent := some [.INPUT, .OUTPUT], types := some [.FromStatement, .GroupedExprs, .GroupedStatement, .GroupedTypeDeclarationOrConstraints, .PipeStatement, .SelectStatement, .SetOperator], without := [.k_alias, .k_as, .k_comma, .k_null_order, .k_order], each := [{ type := .FromStatement, has := [.k_with] }] },
    { key := .k_group, notParent := [.AS, .INPUT, .OUTPUT], types := some [.FromStatement, .GroupedExprs, .GroupedStatement, .PipeStatement, .SelectStatement, .SetOperator], without := [.k_alias, .k_as, .k_comma, .k_null_order, .k_order], each := [{ type := .FromStatement, has := [.k_with] }] }]
  | .KeywordWithStatement => [
    { key := .k_stmt, without := [.k_alias, .k_comma, .k_null_order, .k_order, .k_over] }]
  | .Identifier => [
    { key := .k_alias, notParent := [.sym_lparen, .sym_star, .sym_plus, .sym_minus, .CASE, .INTERVAL, .MODEL, .NOT, .RANGE, .SELECT, .STRUCT, .TABLE, .sym_lbrack, .sym_tilde], without := [.k_alias, .k_as, .k_comma, .k_null_order, .k_order] },
    { key := .k_alias, parent := some [.sym_lparen, .sym_star, .sym_plus, .sym_minus, .CASE, .INTERVAL, .MODEL, .NOT, .RANGE, .SELECT, .STRUCT, .TABLE, .sym_lbrack, .sym_tilde], types := some [.Identifier], without := [.k_alias, .k_as, .k_comma, .k_null_order, .k_order] },
    { key := .k_as, types := some [.Keyword], tokens := some [.AS] },
    { key := .k_right, without := [.k_alias, .k_as, .k_comma] },
    { key := .k_row_value_alias, without := [.k_alias, .k_as, .k_comma] }]
  | .IdentWithOptions => [
    { key := .k_left, without := [.k_alias, .k_as, .k_comma, .k_null_order, .k_order] },
    { key := .k_options, types := some [.KeywordWithGroupedXXX], tokens := some [.OPTIONS] },
    { key := .k_right, without := [.k_alias, .k_as, .k_comma], each := [{ type := .StructLiteral, has := [.k_type] }] },
    { key := .k_trailing_idents, types := some [.Identifier], without := [.k_alias, .k_as, .k_comma, .k_null_order, .k_order] }]
  | .IfStatement => [
    { key := .k_else, types := some [.KeywordWithStatements] },
    { key := .k_elseifs, types := some [.ElseIfClause], tokens := some [.ELSEIF] },
    { key := .k_end_if, types := some [.Keyword] },
    { key := .k_then, types := some [.KeywordWithStatements] }]
  | .InsertStatement => [
    { key := .k_columns, types := some [.GroupedExprs], without := [.k_as, .k_comma] },
    { key := .k_input, types := some [.FromStatement, .GroupedStatement, .Keyword, .KeywordWithExprs, .PipeStatement, .SelectStatement, .SetOperator], without := [.k_alias, .k_as, .k_comma, .k_null_order, .k_order], each := [{ type := .FromStatement, has := [.k_with] }, { type := .Keyword, tokens := some [.ROW] }, { type := .KeywordWithExprs, tokens := some [.VALUES] }] },
    { key := .k_into, types := some [.Keyword], tokens := some [.INTO] },
    { key := .k_target_name, types := some [.DotOperator, .Identifier, .MultiTokenIdentifier], without := [.k_alias, .k_as, .k_comma, .k_null_order, .k_order] }]
  | .IntervalLiteral => [
    { key := .k_alias, without := [.k_alias, .k_as, .k_comma, .k_null_order, .k_order] },
    { key := .k_as, types := some [.Keyword], tokens := some [.AS] },
    { key := .k_date_part, types := some [.Keyword] },
    { key := .k_expr, without := [.k_alias, .k_as, .k_comma] },
    { key := .k_row_value_alias, without := [.k_alias, .k_as, .k_comma] },
    { key := .k_to, types := some [.Keyword], tokens := some [.TO] },
    { key := .k_to_date_part, types := some [.Keyword] }]
  | .InOperator => [
    { key := .k_alias, without := [.k_alias, .k_as, .k_comma, .k_null_order, .k_order] },
    { key := .k_as, types := some [.Keyword], tokens := some [.AS] },
    { key := .k_right, types := some [.CallingUnnest, .GroupedExprs, .GroupedStatement], without := [.k_alias, .k_as, .k_comma, .k_semicolon] },
    { key := .k_row_value_alias, without := [.k_alias, .k_as, .k_comma] }]
  | .IsDistinctFromOperator => [
    { key := .k_alias, without := [.k_alias, .k_as, .k_comma, .k_null_order, .k_order] },
    { key := .k_as, types := some [.Keyword], tokens := some [.AS] },
    { key := .k_distinct, types := some [.Keyword] },
    { key := .k_from, types := some [.Keyword] },
    { key := .k_right, without := [.k_alias, .k_as, .k_comma] },
    { key := .k_row_value_alias, without := [.k_alias, .k_as, .k_comma] }]
  | .JoinOperator => [
    { key := .k_join_type, types := some [.Keyword], tokens := some [.CROSS, .FULL, .INNER, .LEFT, .RIGHT] },
    { key := .k_left, without := [.k_comma] },
    { key := .k_on, types := some [.KeywordWithExpr], tokens := some [.ON] },
    { key := .k_outer, types := some [.Keyword], tokens := some [.OUTER] },
    { key := .k_right, types := some [.AccessOperator, .BinaryOperator, .BetweenOperator, .CallingTableFunction, .CallingUnnest, .DotOperator, .FunctionChain, .GroupedExpr, .GroupedStatement, .Identifier, .InOperator, .IsDistinctFromOperator, .MultiTokenIdentifier, .PipeStatement], without := [.k_comma] },
    { key := .k_using, without := [.k_alias, .k_as, .k_comma] },
    { key := .k_alias, types := some [] },
    { key := .k_as, types := some [] },
    { key := .k_match_recognize, types := some [] },
    { key := .k_pivot, types := some [] },
    { key := .k_unpivot, types := some [] },
    { key := .k_with_offset, types := some [] }]
  | .JoinPipeOperator => [
    { key := .k_exprs, types := some [.AccessOperator, .BinaryOperator, .BetweenOperator, .CallingTableFunction, .CallingUnnest, .DotOperator, .FunctionChain, .GroupedExpr, .GroupedStatement, .Identifier, .InOperator, .IsDistinctFromOperator, .MultiTokenIdentifier, .PipeStatement], without := [.k_comma] },
    { key := .k_method, types := some [.Keyword, .KeywordSequence], tokens := some [.CROSS, .FULL, .INNER, .LEFT, .OUTER, .RIGHT], each := [{ type := .KeywordSequence, has := [.k_next_keyword] }] },
    { key := .k_on, types := some [.KeywordWithExpr], tokens := some [.ON] },
    { key := .k_using, without := [.k_alias, .k_as, .k_comma] },
    { key := .k_keywords, types := some [] }]
  | .LimitClause => [
    { key := .k_expr, without := [.k_alias, .k_as, .k_comma] },
    { key := .k_offset, types := some [.KeywordWithExpr], tokens := some [.OFFSET] }]
  | .LimitPipeOperator => [
    { key := .k_offset, types := some [.KeywordWithExpr], tokens := some [.OFFSET] },
    { key := .k_keywords, types := some [] }]
  | .LoadStatement => [
    { key := .k_column_group, types := some [.GroupedTypeDeclarationOrConstraints] },
    { key := .k_connection, types := some [.Keyword] },
    { key := .k_connection_name, types := some [.DotOperator, .Identifier, .MultiTokenIdentifier], without := [.k_alias, .k_as, .k_comma, .k_null_order, .k_order] },
    { key := .k_data, types := some [.Keyword] },
    { key := .k_files, types := some [.Keyword] },
    { key := .k_from, types := some [.Keyword] },
    { key := .k_from_files, types := some [.GroupedExprs], without := [.k_as, .k_comma] },
    { key := .k_ident, types := some [.DotOperator, .Identifier, .MultiTokenIdentifier], without := [.k_alias, .k_as, .k_comma, .k_null_order, .k_order] },
    { key := .k_into, types := some [.Keyword] },
    { key := .k_options, types := some [.KeywordWithGroupedXXX], tokens := some [.OPTIONS] },
    { key := .k_overwrite_partitions, types := some [.OverwritePartitionsClause] },
    { key := .k_with, types := some [.Keyword], tokens := some [.WITH] },
    { key := .k_with_partition_columns, types := some [.WithPartitionColumnsClause], tokens := some [.WITH] }]
  | .LoopStatement => [
    { key := .k_end_loop, types := some [.Keyword] }]
  | .MatchRecognizeClause => [
    { key := .k_alias, types := some [.Identifier], without := [.k_alias, .k_as, .k_comma, .k_null_order, .k_order] },
    { key := .k_as, types := some [.Keyword], tokens := some [.AS] },
    { key := .k_config, types := some [.MatchRecognizeConfig] }]
  | .MatchRecognizeConfig => [
    { key := .k_define, types := some [.KeywordWithExprs], tokens := some [.DEFINE] },
    { key := .k_measures, types := some [.KeywordWithExprs], tokens := some [.MEASURES] },
    { key := .k_options, types := some [.KeywordWithGroupedXXX], tokens := some [.OPTIONS] },
    { key := .k_pattern, types := some [.PatternClause], tokens := some [.PATTERN] },
    { key := .k_rparen, types := some [.Symbol] },
    { key := .k_skip_rule, types := some [.KeywordSequence], tokens := some [.AFTER], each := [{ type := .KeywordSequence, has := [.k_next_keyword] }] }]
  | .MatchRecognizePipeOperator => [
    { key := .k_alias, types := some [.Identifier], without := [.k_alias, .k_as, .k_comma, .k_null_order, .k_order] },
    { key := .k_as, types := some [.Keyword], tokens := some [.AS] },
    { key := .k_config, types := some [.MatchRecognizeConfig] }]
  | .MergeStatement => [
    { key := .k_into, types := some [.Keyword], tokens := some [.INTO] },
    { key := .k_on, types := some [.KeywordWithExpr] },
    { key := .k_table_name, without := [.k_comma] },
    { key := .k_using, types := some [.KeywordWithExpr] },
    { key := .k_whens, types := some [.WhenClause], tokens := some [.WHEN] }]
  | .MultiTokenIdentifier => [
    { key := .k_alias, types := some [.Identifier], without := [.k_alias, .k_as, .k_comma, .k_null_order, .k_order] },
    { key := .k_as, types := some [.Keyword], tokens := some [.AS] },
    { key := .k_trailing_idents, types := some [.Identifier], without := [.k_alias, .k_as, .k_comma, .k_null_order, .k_order] },
    { key := .k_comma, types := some [] }]
  | .NumericLiteral => [
    { key := .k_alias, without := [.k_alias, .k_as, .k_comma, .k_null_order, .k_order] },
    { key := .k_as, types := some [.Keyword], tokens := some [.AS] },
    { key := .k_right, without := [.k_alias, .k_as, .k_comma] },
    { key := .k_row_value_alias, without := [.k_alias, .k_as, .k_comma] }]
  | .NullLiteral => [
    { key := .k_alias, without := [.k_alias, .k_as, .k_comma, .k_null_order, .k_order] },
    { key := .k_as, types := some [.Keyword], tokens := some [.AS] },
    { key := .k_right, without := [.k_alias, .k_as, .k_comma] },
    { key := .k_row_value_alias, without := [.k_alias, .k_as, .k_comma] }]
  | .OrPattern => [
    { key := .k_left, types := some [.GroupedPattern, .OrPattern, .Pattern] },
    { key := .k_right, types := some [.GroupedPattern, .Pattern] }]
  | .OverClause => [
    { key := .k_window, types := some [.Identifier, .WindowSpecification], without := [.k_alias, .k_as, .k_comma, .k_null_order, .k_order] }]
  | .OverwritePartitionsClause => [
    { key := .k_grouped_expr, without := [.k_alias, .k_as, .k_comma] },
    { key := .k_overwrite, types := some [.Keyword], tokens := some [.OVERWRITE] }]
  | .Parameter => [
    { key := .k_alias, without := [.k_alias, .k_as, .k_comma, .k_null_order, .k_order] },
    { key := .k_as, types := some [.Keyword], tokens := some [.AS] },
    { key := .k_right, without := [.k_alias, .k_as, .k_comma] },
    { key := .k_row_value_alias, without := [.k_alias, .k_as, .k_comma] },
    { key := .k_for_system_time_as_of, types := some [] },
    { key := .k_match_recognize, types := some [] },
    { key := .k_pivot, types := some [] },
    { key := .k_tablesample, types := some [] },
    { key := .k_unpivot, types := some [] },
    { key := .k_with_offset, types := some [] }]
  | .Pattern => [
    { key := .k_suffixes, types := some [.PatternQuantifier, .Symbol], tokens := some [.sym_star, .sym_plus, .sym_quest, .sym_lbrace], each := [{ type := .Symbol, tokens := some [.sym_star, .sym_plus, .sym_quest] }] }]
  | .PatternClause => [
    { key := .k_pattern, types := some [.GroupedPattern, .Pattern] }]
  | .PatternQuantifier => [
    { key := .k_max, types := some [.NumericLiteral], without := [.k_alias, .k_as, .k_comma, .k_null_order, .k_order] },
    { key := .k_min, types := some [.NumericLiteral], without := [.k_alias, .k_as, .k_comma, .k_null_order, .k_order] },
    { key := .k_rbrace, types := some [.Symbol] }]
  | .PipeStatement => [
    { key := .k_alias, without := [.k_alias, .k_as, .k_comma, .k_null_order, .k_order] },
    { key := .k_as, types := some [.Keyword], tokens := some [.AS] },
    { key := .k_right, types := some [.AggregatePipeOperator, .BasePipeOperator, .Keyword, .JoinPipeOperator, .LimitPipeOperator, .MatchRecognizePipeOperator, .PivotPipeOperator, .SelectPipeOperator, .TableSamplePipeOperator, .UnionPipeOperator, .UnpivotPipeOperator, .WithPipeOperator], each := [{ type := .AggregatePipeOperator, has := [.k_exprs] }, { type := .BasePipeOperator, has := [.k_exprs] }, { type := .Keyword, tokens := some [.DISTINCT] }, { type := .JoinPipeOperator, has := [.k_exprs] }, { type := .LimitPipeOperator, has := [.k_exprs] }, { type := .SelectPipeOperator, has := [.k_exprs] }, { type := .TableSamplePipeOperator, has := [.k_group, .k_keywords] }, { type := .UnionPipeOperator, has := [.k_exprs, .k_keywords] }] },
    { key := .k_row_value_alias, without := [.k_alias, .k_as, .k_comma] },
    { key := .k_with, types := some [.WithClause], tokens := some [.WITH] }]
  | .PivotConfig => [
    { key := .k_for, types := some [.KeywordWithExpr] },
    { key := .k_rparen, types := some [.Symbol] }]
  | .PivotOperator => [
    { key := .k_alias, types := some [.Identifier], without := [.k_alias, .k_as, .k_comma, .k_null_order, .k_order] },
    { key := .k_as, types := some [.Keyword], tokens := some [.AS] },
    { key := .k_config, types := some [.PivotConfig] }]
  | .PivotPipeOperator => [
    { key := .k_alias, types := some [.Identifier], without := [.k_alias, .k_as, .k_comma, .k_null_order, .k_order] },
    { key := .k_as, types := some [.Keyword], tokens := some [.AS] },
    { key := .k_config, types := some [.PivotConfig] },
    { key := .k_keywords, types := some [] }]
  | .RaiseStatement => [
    { key := .k_using, types := some [.KeywordWithExpr], tokens := some [.USING] }]
  | .RangeLiteral => [
    { key := .k_alias, without := [.k_alias, .k_as, .k_comma, .k_null_order, .k_order] },
    { key := .k_as, types := some [.Keyword], tokens := some [.AS] },
    { key := .k_row_value_alias, notParent := [.REFERENCES], without := [.k_alias, .k_as, .k_comma] },
    { key := .k_row_value_alias, parent := some [.REFERENCES], without := [.k_alias, .k_as, .k_comma], each := [{ type := .FromStatement, has := [.k_with] }] },
    { key := .k_type, types := some [.Type] }]
  | .RenameColumnClause => [
    { key := .k_column, types := some [.Keyword] },
    { key := .k_ident, types := some [.DotOperator, .Identifier, .MultiTokenIdentifier], without := [.k_alias, .k_as, .k_comma, .k_null_order, .k_order] },
    { key := .k_if_exists, types := some [.KeywordSequence], tokens := some [.IF], each := [{ type := .KeywordSequence, has := [.k_next_keyword] }] },
    { key := .k_to, types := some [.KeywordWithExpr] }]
  | .RepeatStatement => [
    { key := .k_end_repeat, types := some [.Keyword] },
    { key := .k_until, types := some [.KeywordWithExpr] }]
  | .RevokeStatement => [
    { key := .k_from, types := some [.KeywordWithExprs] },
    { key := .k_ident, types := some [.DotOperator, .Identifier, .MultiTokenIdentifier], without := [.k_alias, .k_as, .k_comma, .k_null_order, .k_order] },
    { key := .k_on, types := some [.Keyword] },
    { key := .k_resource_type, types := some [.Keyword] }]
  | .SelectPipeOperator => [
    { key := .k_keywords, types := some [.Keyword, .KeywordSequence], each := [{ type := .KeywordSequence, has := [.k_next_keyword] }] },
    { key := .k_window, types := some [.WindowClause], tokens := some [.WINDOW] }]
  | .SelectStatement => [
    { key := .k_alias, without := [.k_alias, .k_as, .k_comma, .k_null_order, .k_order] },
    { key := .k_as, types := some [.Keyword], tokens := some [.AS] },
    { key := .k_as_struct_or_value, types := some [.Keyword] },
    { key := .k_differential_privacy, types := some [.DifferentialPrivacyClause], tokens := some [.WITH] },
    { key := .k_distinct_or_all, types := some [.Keyword], tokens := some [.ALL, .DISTINCT] },
    { key := .k_from, types := some [.KeywordWithExpr], tokens := some [.FROM] },
    { key := .k_groupby, types := some [.GroupByExprs], tokens := some [.GROUP] },
    { key := .k_having, types := some [.KeywordWithExpr], tokens := some [.HAVING] },
    { key := .k_limit, types := some [.LimitClause], tokens := some [.LIMIT] },
    { key := .k_qualify, types := some [.KeywordWithExpr], tokens := some [.QUALIFY] },
    { key := .k_row_value_alias, without := [.k_alias, .k_as, .k_comma] },
    { key := .k_where, types := some [.KeywordWithExpr], tokens := some [.WHERE] },
    { key := .k_window, types := some [.WindowClause], tokens := some [.WINDOW] },
    { key := .k_with, types := some [.WithClause], tokens := some [.WITH] }]
  | .SetOperator => [
    { key := .k_alias, without := [.k_alias, .k_as, .k_comma, .k_null_order, .k_order] },
    { key := .k_as, types := some [.Keyword], tokens := some [.AS] },
    { key := .k_by, types := some [.KeywordSequence], tokens := some [.BY], each := [{ type := .KeywordSequence, has := [.k_next_keyword] }] },
    { key := .k_corresponding, types := some [.Keyword, .KeywordSequence], tokens := some [.CORRESPONDING, .STRICT], each := [{ type := .Keyword, tokens := some [.CORRESPONDING] }, { type := .KeywordSequence, has := [.k_next_keyword] }] },
    { key := .k_distinct_or_all, types := some [.Keyword] },
    { key := .k_left, types := some [.GroupedStatement, .SelectStatement, .SetOperator], without := [.k_alias, .k_as, .k_comma, .k_null_order, .k_order, .k_semicolon] },
    { key := .k_limit, types := some [.LimitClause], tokens := some [.LIMIT] },
    { key := .k_method, types := some [.Keyword, .KeywordSequence], tokens := some [.FULL, .INNER, .LEFT, .OUTER], each := [{ type := .KeywordSequence, has := [.k_next_keyword] }] },
    { key := .k_right, types := some [.FromStatement, .GroupedStatement, .PipeStatement, .SelectStatement, .SetOperator], without := [.k_alias, .k_as, .k_comma, .k_null_order, .k_order], each := [{ type := .FromStatement, has := [.k_with] }, { type := .SetOperator, has := [.k_with] }] },
    { key := .k_row_value_alias, without := [.k_alias, .k_as, .k_comma] },
    { key := .k_with, types := some [.WithClause], tokens := some [.WITH] }]
  | .SetStatement => [
    { key := .k_expr, without := [.k_alias, .k_as, .k_comma] }]
  | .StringLiteral => [
    { key := .k_alias, without := [.k_alias, .k_as, .k_comma, .k_null_order, .k_order] },
    { key := .k_as, types := some [.Keyword], tokens := some [.AS] },
    { key := .k_right, without := [.k_alias, .k_as, .k_comma] },
    { key := .k_row_value_alias, without := [.k_alias, .k_as, .k_comma] }]
  | .StructLiteral => [
    { key := .k_alias, without := [.k_alias, .k_as, .k_comma, .k_null_order, .k_order] },
    { key := .k_as, types := some [.Keyword], tokens := some [.AS] },
    { key := .k_row_value_alias, notParent := [.REFERENCES], without := [.k_alias, .k_as, .k_comma] },
    { key := .k_row_value_alias, parent := some [.REFERENCES], without := [.k_alias, .k_as, .k_comma], each := [{ type := .FromStatement, has := [.k_with] }] },
    { key := .k_rparen, parent := some [.sym_lparen], types := some [.Symbol] },
    { key := .k_rparen, notParent := [.sym_lparen], types := some [.Symbol], tokens := some [.sym_rparen] },
    { key := .k_type, types := some [.Type] }]
  | .TableSampleClause => [
    { key := .k_group, types := some [.TableSampleRatio] },
    { key := .k_system, types := some [.Keyword] }]
  | .TableSamplePipeOperator => [
    { key := .k_group, types := some [.TableSampleRatio] },
    { key := .k_keywords, types := some [.Keyword] }]
  | .TableSampleRatio => [
    { key := .k_expr, without := [.k_alias, .k_as, .k_comma] },
    { key := .k_percent, types := some [.Keyword] },
    { key := .k_rparen, types := some [.Symbol] }]
  | .Template => [
    { key := .k_alias, without := [.k_alias, .k_as, .k_comma, .k_null_order, .k_order] },
    { key := .k_as, types := some [.Keyword], tokens := some [.AS] },
    { key := .k_right, without := [.k_alias, .k_as, .k_comma] },
    { key := .k_row_value_alias, without := [.k_alias, .k_as, .k_comma] },
    { key := .k_for_system_time_as_of, types := some [] },
    { key := .k_match_recognize, types := some [] },
    { key := .k_pivot, types := some [] },
    { key := .k_tablesample, types := some [] },
    { key := .k_unpivot, types := some [] },
    { key := .k_with_offset, types := some [] }]
  | .TrainingDataCustomHolidayClause => [
    { key := .k_custom_holiday, types := some [.WithQuery] },
    { key := .k_rparen, types := some [.Symbol] },
    { key := .k_training_data, types := some [.WithQuery] }]
  | .TransactionStatement => [
    { key := .k_transaction, types := some [.Keyword], tokens := some [.TRANSACTION] }]
  | .TruncateStatement => [
    { key := .k_table, types := some [.Keyword] },
    { key := .k_table_name, types := some [.DotOperator, .Identifier, .MultiTokenIdentifier], without := [.k_alias, .k_as, .k_comma, .k_null_order, .k_order] }]
  | .Type => [
    { key := .k_aggregate, types := some [.KeywordSequence], tokens := some [.NOT], each := [{ type := .KeywordSequence, has := [.k_next_keyword] }] },
    { key := .k_collate, types := some [.KeywordWithExpr], tokens := some [.COLLATE] },
    { key := .k_constraint, types := some [.KeywordWithExpr], tokens := some [.CONSTRAINT] },
    { key := .k_default, types := some [.KeywordWithExpr], tokens := some [.DEFAULT] },
    { key := .k_enforced, types := some [.Keyword, .KeywordSequence], tokens := some [.ENFORCED, .NOT], each := [{ type := .Keyword, tokens := some [.ENFORCED] }, { type := .KeywordSequence, has := [.k_next_keyword], tokens := some [.NOT] }] },
    { key := .k_not_null, types := some [.Keyword] },
    { key := .k_options, types := some [.KeywordWithGroupedXXX], tokens := some [.OPTIONS] },
    { key := .k_parameter, types := some [.GroupedExprs], without := [.k_as, .k_comma] },
    { key := .k_primarykey, types := some [.KeywordSequence], tokens := some [.PRIMARY], each := [{ type := .KeywordSequence, has := [.k_next_keyword] }] },
    { key := .k_references, types := some [.KeywordWithExpr], tokens := some [.REFERENCES] },
    { key := .k_type, types := some [.Keyword] },
    { key := .k_type_declaration, parent := some [.ARRAY, .RANGE], types := some [.GroupedType], tokens := some [.sym_lt] },
    { key := .k_type_declaration, parent := some [.STRUCT, .TABLE], types := some [.GroupedTypeDeclarationOrConstraints], tokens := some [.sym_lt], each := [{ type := .GroupedTypeDeclarationOrConstraints, has := [.k_declarations] }] }]
  | .TypeDeclaration => [
    { key := .k_in_out, types := some [.Keyword], tokens := some [.IN, .INOUT, .OUT] },
    { key := .k_type, types := some [.Type] }]
  | .UnaryOperator => [
    { key := .k_alias, without := [.k_alias, .k_as, .k_comma, .k_null_order, .k_order] },
    { key := .k_as, types := some [.Keyword], tokens := some [.AS] },
    { key := .k_right, parent := some [.sym_plus, .sym_minus, .B, .BIGDECIMAL, .BIGNUMERIC, .BR, .DATE, .DATETIME, .DECIMAL, .JSON, .NOT, .NUMERIC, .R, .RB, .TIME, .TIMESTAMP, .sym_tilde], without := [.k_alias, .k_as, .k_comma] },
    { key := .k_right, parent := some [.MODEL, .TABLE], types := some [.AccessOperator, .BinaryOperator, .BetweenOperator, .CallingFunction, .DotOperator, .FunctionChain, .Identifier, .InOperator, .IsDistinctFromOperator, .MultiTokenIdentifier], without := [.k_alias, .k_as, .k_comma] },
    { key := .k_row_value_alias, without := [.k_alias, .k_as, .k_comma] }]
  | .Unknown => [
    { key := .k_alias, without := [.k_alias, .k_as, .k_comma, .k_null_order, .k_order] },
    { key := .k_as, types := some [.Keyword], tokens := some [.AS] },
    { key := .k_right, without := [.k_alias, .k_as, .k_comma] },
    { key := .k_row_value_alias, without := [.k_alias, .k_as, .k_comma] }]
  | .UndropStatement => [
    { key := .k_ident, types := some [.DotOperator, .Identifier, .MultiTokenIdentifier], without := [.k_alias, .k_as, .k_comma, .k_null_order, .k_order] },
    { key := .k_what, types := some [.Keyword] }]
  | .UnionPipeOperator => [
    { key := .k_by, types := some [.KeywordSequence], tokens := some [.BY], each := [{ type := .KeywordSequence, has := [.k_next_keyword] }] },
    { key := .k_corresponding, types := some [.Keyword, .KeywordSequence], tokens := some [.CORRESPONDING, .STRICT], each := [{ type := .Keyword, tokens := some [.CORRESPONDING] }, { type := .KeywordSequence, has := [.k_next_keyword] }] },
    { key := .k_keywords, types := some [.Keyword] },
    { key := .k_method, types := some [.Keyword, .KeywordSequence], tokens := some [.FULL, .INNER, .LEFT, .OUTER], each := [{ type := .KeywordSequence, has := [.k_next_keyword] }] }]
  | .UnpivotOperator => [
    { key := .k_alias, types := some [.Identifier], without := [.k_alias, .k_as, .k_comma, .k_null_order, .k_order] },
    { key := .k_as, types := some [.Keyword], tokens := some [.AS] },
    { key := .k_config, types := some [.UnpivotConfig] },
    { key := .k_include_or_exclude_nulls, types := some [.Keyword] }]
  | .UnpivotPipeOperator => [
    { key := .k_alias, types := some [.Identifier], without := [.k_alias, .k_as, .k_comma, .k_null_order, .k_order] },
    { key := .k_as, types := some [.Keyword], tokens := some [.AS] },
    { key := .k_config, types := some [.UnpivotConfig] },
    { key := .k_keywords, types := some [.KeywordSequence], tokens := some [.EXCLUDE, .INCLUDE], each := [{ type := .KeywordSequence, has := [.k_next_keyword] }] }]
  | .UnpivotConfig => [
    { key := .k_expr, without := [.k_comma] },
    { key := .k_for, types := some [.KeywordWithExpr] },
    { key := .k_rparen, types := some [.Symbol] }]
  | .UpdateStatement => [
    { key := .k_from, types := some [.KeywordWithExpr], tokens := some [.FROM] },
    { key := .k_set, types := some [.KeywordWithExprs] },
    { key := .k_table_name, without := [.k_comma] },
    { key := .k_where, types := some [.KeywordWithExpr], tokens := some [.WHERE] }]
  | .WhenClause => [
    { key := .k_and, types := some [.KeywordWithExpr], tokens := some [.AND] },
    { key := .k_by_target_or_source, types := some [.Keyword] },
    { key := .k_matched, types := some [.Keyword] },
    { key := .k_then, types := some [.KeywordWithStatement] }]
  | .WhileStatement => [
    { key := .k_do, types := some [.KeywordWithStatements] },
    { key := .k_end_while, types := some [.Keyword] }]
  | .WindowClause => [
    { key := .k_window_exprs, types := some [.WindowExpr] }]
  | .WindowExpr => [
    { key := .k_as, types := some [.Keyword] },
    { key := .k_window, types := some [.Identifier, .WindowSpecification], without := [.k_alias, .k_as, .k_comma, .k_null_order, .k_order] }]
  | .WindowFrameClause => [
    { key := .k_and, types := some [.Keyword] },
    { key := .k_between, types := some [.Keyword], tokens := some [.BETWEEN] },
    { key := .k_end, without := [.k_alias, .k_as, .k_comma] },
    { key := .k_start, without := [.k_alias, .k_as, .k_comma] }]
  | .WindowSpecification => [
    { key := .k_frame, types := some [.WindowFrameClause], tokens := some [.RANGE, .ROWS] },
    { key := .k_name, types := some [.Identifier], without := [.k_alias, .k_as, .k_comma, .k_null_order, .k_order] },
    { key := .k_rparen, types := some [.Symbol] }]
  | .WithClause => [
    { key := .k_queries, types := some [.WithQuery] },
    { key := .k_recursive, types := some [.Keyword], tokens := some [.RECURSIVE] }]
  | .WithOffsetClause => [
    { key := .k_alias, types := some [.Identifier], without := [.k_alias, .k_as, .k_comma, .k_null_order, .k_order] },
    { key := .k_as, types := some [.Keyword], tokens := some [.AS] },
    { key := .k_offset, types := some [.Keyword] }]
  | .WithPipeOperator => [
    { key := .k_queries, types := some [.WithQuery] },
    { key := .k_recursive, types := some [.Keyword], tokens := some [.RECURSIVE] }]
  | .WithPartitionColumnsClause => [
    { key := .k_column_schema_group, types := some [.GroupedTypeDeclarationOrConstraints] },
    { key := .k_partition_columns, types := some [.Keyword] }]
  | .WithQuery => [
    { key := .k_as, types := some [.Keyword] },
    { key := .k_stmt, types := some [.GroupedStatement], without := [.k_alias, .k_as, .k_comma, .k_null_order, .k_order, .k_semicolon] }]
  | .XXXByExprs => [
    { key := .k_by, types := some [.Keyword] }]
  | _ => []

end Verif.Spec
