AccessOperator k_alias child
AccessOperator k_for_system_time_as_of node
AccessOperator k_match_recognize node
AccessOperator k_pivot node
AccessOperator k_row_value_alias node
AccessOperator k_tablesample node
AccessOperator k_unpivot node
AccessOperator k_with_offset node
AlterBICapacityStatement k_colon node
AlterBICapacityStatement k_leading_label node
AlterBICapacityStatement k_trailing_label node
AlterColumnStatement k_colon node
AlterColumnStatement k_leading_label node
AlterColumnStatement k_semicolon node
AlterColumnStatement k_set missing
AlterColumnStatement k_trailing_label node
AlterModelStatement k_colon node
AlterModelStatement k_leading_label node
AlterModelStatement k_trailing_label node
AlterOrganizationStatement k_colon node
AlterOrganizationStatement k_leading_label node
AlterOrganizationStatement k_trailing_label node
AlterProjectStatement k_colon node
AlterProjectStatement k_leading_label node
AlterProjectStatement k_trailing_label node
AlterReservationStatement k_colon node
AlterReservationStatement k_leading_label node
AlterReservationStatement k_trailing_label node
AlterSchemaStatement k_colon node
AlterSchemaStatement k_leading_label node
AlterSchemaStatement k_trailing_label node
AlterTableStatement k_colon node
AlterTableStatement k_leading_label node
AlterTableStatement k_trailing_label node
AlterVectorIndexStatement k_colon node
AlterVectorIndexStatement k_leading_label node
AlterVectorIndexStatement k_trailing_label node
AlterViewStatement k_colon node
AlterViewStatement k_leading_label node
AlterViewStatement k_trailing_label node
ArrayLiteral k_alias child
ArrayLiteral k_row_value_alias node
AssertStatement k_as missing
AssertStatement k_colon node
AssertStatement k_description missing
AssertStatement k_leading_label node
AssertStatement k_trailing_label node
Asterisk k_alias child
Asterisk k_null_order vec
Asterisk k_order node
Asterisk k_row_value_alias node
BetweenOperator k_alias child
BetweenOperator k_for_system_time_as_of node
BetweenOperator k_match_recognize node
BetweenOperator k_pivot node
BetweenOperator k_row_value_alias node
BetweenOperator k_tablesample node
BetweenOperator k_unpivot node
BetweenOperator k_with_offset node
BinaryOperator k_alias child
BinaryOperator k_for_system_time_as_of node
BinaryOperator k_match_recognize node
BinaryOperator k_pivot node
BinaryOperator k_row_value_alias node
BinaryOperator k_tablesample node
BinaryOperator k_unpivot node
BinaryOperator k_with_offset node
BooleanLiteral k_alias child
BooleanLiteral k_row_value_alias node
BreakContinueStatement k_colon node
BreakContinueStatement k_leading_label node
BreakContinueStatement k_trailing_label node
CallStatement k_colon node
CallStatement k_leading_label node
CallStatement k_trailing_label node
CallingFunction k_alias child
CallingFunction k_row_value_alias node
CallingTableFunction k_distinct node
CallingTableFunction k_for_system_time_as_of node
CallingTableFunction k_having node
CallingTableFunction k_ignore_nulls vec
CallingTableFunction k_limit node
CallingTableFunction k_null_order vec
CallingTableFunction k_order node
CallingTableFunction k_orderby node
CallingTableFunction k_over node
CallingTableFunction k_tablesample node
CallingTableFunction k_with_offset missing
CallingUnnest k_and node
CallingUnnest k_distinct node
CallingUnnest k_for_system_time_as_of node
CallingUnnest k_from node
CallingUnnest k_func missing
CallingUnnest k_having node
CallingUnnest k_ignore_nulls vec
CallingUnnest k_left node
CallingUnnest k_limit node
CallingUnnest k_not node
CallingUnnest k_null_order vec
CallingUnnest k_order node
CallingUnnest k_orderby node
CallingUnnest k_over node
CallingUnnest k_quantifier node
CallingUnnest k_right node
CallingUnnest k_right_max node
CallingUnnest k_right_min node
CallingUnnest k_rparen missing
CallingUnnest k_tablesample node
CallingUnnest k_with_offset missing
CaseExpr k_alias child
CaseExpr k_row_value_alias node
CaseStatement k_colon node
CaseStatement k_leading_label node
CaseStatement k_trailing_label node
CreateFunctionStatement k_colon node
CreateFunctionStatement k_leading_label node
CreateFunctionStatement k_trailing_label node
CreateIndexStatement k_colon node
CreateIndexStatement k_leading_label node
CreateIndexStatement k_trailing_label node
CreateModelStatement k_colon node
CreateModelStatement k_leading_label node
CreateModelStatement k_trailing_label node
CreateProcedureStatement k_colon node
CreateProcedureStatement k_leading_label node
CreateProcedureStatement k_trailing_label node
CreateReservationStatement k_colon node
CreateReservationStatement k_leading_label node
CreateReservationStatement k_trailing_label node
CreateRowAccessPolicyStatement k_colon node
CreateRowAccessPolicyStatement k_leading_label node
CreateRowAccessPolicyStatement k_trailing_label node
CreateSchemaStatement k_colon node
CreateSchemaStatement k_default_collate missing
CreateSchemaStatement k_leading_label node
CreateSchemaStatement k_trailing_label node
CreateTableStatement k_colon node
CreateTableStatement k_leading_label node
CreateTableStatement k_like_or_copy missing
CreateTableStatement k_source_table missing
CreateTableStatement k_trailing_label node
CreateViewStatement k_as missing
CreateViewStatement k_colon node
CreateViewStatement k_leading_label node
CreateViewStatement k_trailing_label node
DeclareStatement k_colon node
DeclareStatement k_leading_label node
DeclareStatement k_trailing_label node
DeleteStatement k_colon node
DeleteStatement k_from missing
DeleteStatement k_leading_label node
DeleteStatement k_trailing_label node
DotOperator k_alias child
DotOperator k_row_value_alias node
DotOperator k_with_offset missing
DropRowAccessPolicyStatement k_colon node
DropRowAccessPolicyStatement k_leading_label node
DropRowAccessPolicyStatement k_trailing_label node
DropStatement k_colon node
DropStatement k_leading_label node
DropStatement k_trailing_label node
EmptyStruct k_alias child
ExecuteStatement k_colon node
ExecuteStatement k_into missing
ExecuteStatement k_leading_label node
ExecuteStatement k_trailing_label node
ExportDataStatement k_colon node
ExportDataStatement k_leading_label node
ExportDataStatement k_trailing_label node
ExportModelStatement k_colon node
ExportModelStatement k_leading_label node
ExportModelStatement k_trailing_label node
ExtractArgument k_at_time_zone missing
ExtractArgument k_time_zone missing
FromStatement k_alias node
FromStatement k_as node
FromStatement k_colon node
FromStatement k_comma node
FromStatement k_leading_label node
FromStatement k_null_order vec
FromStatement k_order node
FromStatement k_row_value_alias node
FromStatement k_trailing_label node
FromStatement k_with missing
FunctionChain k_alias child
FunctionChain k_for_system_time_as_of node
FunctionChain k_row_value_alias node
FunctionChain k_tablesample node
FunctionChain k_with_offset missing
GrantStatement k_colon node
GrantStatement k_leading_label node
GrantStatement k_trailing_label node
GroupedExpr k_alias child
GroupedExpr k_for_system_time_as_of node
GroupedExpr k_tablesample node
GroupedExpr k_with_offset missing
GroupedStatement k_alias child
GroupedStatement k_colon node
GroupedStatement k_for_system_time_as_of node
GroupedStatement k_leading_label node
GroupedStatement k_limit missing
GroupedStatement k_orderby missing
GroupedStatement k_row_value_alias node
GroupedStatement k_tablesample node
GroupedStatement k_trailing_label node
GroupedStatement k_with_offset missing
GroupedTypeDeclarationOrConstraints k_declarations missing
IdentWithOptions k_left node
IdentWithOptions k_right node
IdentWithOptions k_trailing_idents vec
Identifier k_alias child
Identifier k_row_value_alias node
Identifier k_with_offset missing
IfStatement k_colon node
IfStatement k_else missing
IfStatement k_elseifs missing
IfStatement k_leading_label node
IfStatement k_trailing_label node
InOperator k_alias child
InOperator k_for_system_time_as_of node
InOperator k_match_recognize node
InOperator k_pivot node
InOperator k_row_value_alias node
InOperator k_tablesample node
InOperator k_unpivot node
InOperator k_with_offset node
InsertStatement k_colon node
InsertStatement k_leading_label node
InsertStatement k_trailing_label node
IntervalLiteral k_alias child
IntervalLiteral k_null_order vec
IntervalLiteral k_order node
IntervalLiteral k_row_value_alias node
IsDistinctFromOperator k_alias child
IsDistinctFromOperator k_for_system_time_as_of node
IsDistinctFromOperator k_match_recognize node
IsDistinctFromOperator k_pivot node
IsDistinctFromOperator k_row_value_alias node
IsDistinctFromOperator k_tablesample node
IsDistinctFromOperator k_unpivot node
IsDistinctFromOperator k_with_offset node
JoinOperator k_join_type missing
JoinOperator k_on missing
JoinOperator k_outer missing
JoinOperator k_using missing
JoinOperator k_with_offset missing
KeywordSequence k_next_keyword missing
LoadStatement k_colon node
LoadStatement k_leading_label node
LoadStatement k_trailing_label node
MatchRecognizeConfig k_pattern missing
MergeStatement k_colon node
MergeStatement k_leading_label node
MergeStatement k_trailing_label node
MultiTokenIdentifier k_with_offset missing
NullLiteral k_alias child
NullLiteral k_row_value_alias node
NumericLiteral k_alias child
NumericLiteral k_row_value_alias node
Parameter k_alias child
Parameter k_row_value_alias node
Parameter k_with_offset missing
PipeStatement k_alias node
PipeStatement k_as node
PipeStatement k_colon node
PipeStatement k_comma node
PipeStatement k_for_system_time_as_of node
PipeStatement k_leading_label node
PipeStatement k_match_recognize node
PipeStatement k_null_order vec
PipeStatement k_order node
PipeStatement k_pivot node
PipeStatement k_row_value_alias node
PipeStatement k_tablesample node
PipeStatement k_trailing_label node
PipeStatement k_unpivot node
PipeStatement k_with node
PipeStatement k_with_offset node
RaiseStatement k_colon node
RaiseStatement k_leading_label node
RaiseStatement k_trailing_label node
RangeLiteral k_alias child
RangeLiteral k_row_value_alias node
RevokeStatement k_colon node
RevokeStatement k_leading_label node
RevokeStatement k_trailing_label node
SelectStatement k_alias node
SelectStatement k_as node
SelectStatement k_colon node
SelectStatement k_comma node
SelectStatement k_leading_label node
SelectStatement k_null_order vec
SelectStatement k_order node
SelectStatement k_row_value_alias node
SelectStatement k_trailing_label node
SetOperator k_alias node
SetOperator k_as node
SetOperator k_colon node
SetOperator k_comma node
SetOperator k_leading_label node
SetOperator k_limit node
SetOperator k_null_order vec
SetOperator k_order node
SetOperator k_orderby node
SetOperator k_right child
SetOperator k_row_value_alias node
SetOperator k_trailing_label node
SetStatement k_colon node
SetStatement k_leading_label node
SetStatement k_trailing_label node
SingleTokenStatement k_colon node
SingleTokenStatement k_leading_label node
SingleTokenStatement k_trailing_label node
StringLiteral k_alias child
StringLiteral k_row_value_alias node
StructLiteral k_alias child
StructLiteral k_row_value_alias node
Template k_alias child
Template k_row_value_alias node
Template k_with_offset missing
TransactionStatement k_colon node
TransactionStatement k_leading_label node
TransactionStatement k_trailing_label node
TruncateStatement k_colon node
TruncateStatement k_leading_label node
TruncateStatement k_trailing_label node
TypeDeclaration k_in_out missing
UnaryOperator k_alias child
UnaryOperator k_row_value_alias node
UndropStatement k_colon node
UndropStatement k_leading_label node
UndropStatement k_trailing_label node
Unknown k_alias node
Unknown k_as node
Unknown k_comma node
Unknown k_leading_comments vec
Unknown k_null_order vec
Unknown k_order node
Unknown k_row_value_alias node
Unknown k_trailing_comments vec
UnpivotOperator k_include_or_exclude_nulls missing
UpdateStatement k_colon node
UpdateStatement k_leading_label node
UpdateStatement k_trailing_label node
UpdateStatement k_where missing
WhenClause k_and missing
WhenClause k_by_target_or_source missing
WindowFrameClause k_start missing
WindowSpecification k_frame missing
WindowSpecification k_orderby missing
WindowSpecification k_partitionby missing
WithPartitionColumnsClause k_column_schema_group missing
WithQuery k_comma missing
