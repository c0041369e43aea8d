import Verif.Model.Syntax
/-! Generated by tools/translate.py from /repo/src/parser.rs — the bodies of the `parse_*` functions. -/
namespace Verif.Program
open Cmd Exp Cond Atom Off

/-- src/parser.rs lines 211-230: `fn parse_between_operator`. -/
def parse_between_operator : FunDef where
  params := [v_left]
  body :=
    .set v_precedence (.prec (.lit 0)) ;;
    .set v_between (.construct .BetweenOperator) ;;
    .push v_between .k_left (.var v_left) ;;
    .next ;;
    .push v_between .k_right_min (.call .parse_expr [.var v_precedence, .bool false, .bool false, .bool false, .bool true]) ;;
    .next ;;
    .push v_between .k_and (.construct .Keyword) ;;
    .next ;;
    .push v_between .k_right_max (.call .parse_expr [.var v_precedence, .bool false, .bool false, .bool false, .bool true]) ;;
    .ret (.var v_between)

/-- src/parser.rs lines 231-249: `fn parse_binary_operator`. -/
def parse_binary_operator : FunDef where
  params := [v_left]
  body :=
    .set v_precedence (.prec (.lit 0)) ;;
    .set v_node (.construct .BinaryOperator) ;;
    .ite (.and (.up (.lit 0) [.IS]) (.up (.lit 1) [.NOT])) (
      .next ;;
      .push v_node .k_not (.construct .Keyword)) .skip ;;
    .ite (.up (.lit 1) [.ALL, .ANY, .SOME]) (
      .next ;;
      .push v_node .k_quantifier (.construct .Keyword)) .skip ;;
    .next ;;
    .push v_node .k_left (.var v_left) ;;
    .push v_node .k_right (.call .parse_expr [.var v_precedence, .bool false, .bool false, .bool false, .bool true]) ;;
    .ret (.var v_node)

/-- src/parser.rs lines 250-296: `fn parse_constraint`. -/
def parse_constraint : FunDef where
  params := []
  body :=
    .ite (.up (.lit 0) [.CONSTRAINT]) (
      .set v_constraint (.construct .Keyword) ;;
      .ite (.up (.lit 1) [.IF]) (
        .next ;;
        .set v__if_not_exists (.call .parse_n_keywords [.nat 3]) ;;
        .next ;;
        .set v_ident (.call .parse_identifier []) ;;
        .next ;;
        .set v_res (.construct .Constraint) ;;
        .push v_res .k_constraint (.var v_constraint) ;;
        .pushVec v_res .k_if_not_exists (.var v__if_not_exists) ;;
        .push v_res .k_ident (.var v_ident)) (
        .next ;;
        .set v_ident (.call .parse_identifier []) ;;
        .next ;;
        .set v_res (.construct .Constraint) ;;
        .push v_res .k_constraint (.var v_constraint) ;;
        .push v_res .k_ident (.var v_ident))) (
      .set v_res (.construct .Constraint)) ;;
    .next ;;
    .push v_res .k_key (.construct .Keyword) ;;
    .ite (.up (.lit 1) [.sym_lparen]) (
      .next ;;
      .push v_res .k_columns (.call .parse_grouped_exprs [.bool false])) .skip ;;
    .ite (.up (.lit 1) [.REFERENCES]) (
      .next ;;
      .set v_references (.construct .KeywordWithExpr) ;;
      .next ;;
      .push v_references .k_expr (.call .parse_expr [.nat usizeMax, .bool false, .bool true, .bool false, .bool true]) ;;
      .push v_res .k_references (.var v_references)) .skip ;;
    .ite (.up (.lit 1) [.NOT, .ENFORCED]) (
      .next ;;
      .push v_res .k_enforced (.call .parse_enforced [])) .skip ;;
    .ret (.var v_res)

/-- src/parser.rs lines 297-325: `fn parse_cte`. -/
def parse_cte : FunDef where
  params := []
  body :=
    .set v_query (.construct .WithQuery) ;;
    .next ;;
    .push v_query .k_as (.construct .Keyword) ;;
    .next ;;
    .set v_grouped (.construct .GroupedStatement) ;;
    .next ;;
    .ite (.up (.lit 0) [.FROM]) (
      .push v_grouped .k_stmt (.call .parse_from_statement [])) (
      .push v_grouped .k_stmt (.call .parse_select_statement [.bool false, .bool true])) ;;
    .next ;;
    .ite (.not (.up (.lit 0) [.sym_rparen])) (
      .fail (.lit 0) 312) .skip ;;
    .push v_grouped .k_rparen (.construct .Symbol) ;;
    .push v_query .k_stmt (.var v_grouped) ;;
    .ite (.raw (.lit 1) [.sym_comma]) (
      .next ;;
      .push v_query .k_comma (.construct .Symbol)) .skip ;;
    .ret (.var v_query)

/-- src/parser.rs lines 326-336: `fn parse_enforced`. -/
def parse_enforced : FunDef where
  params := []
  body :=
    .ite (.up (.lit 0) [.NOT]) (
      .set v_enforced (.construct .KeywordSequence) ;;
      .next ;;
      .push v_enforced .k_next_keyword (.construct .Keyword)) (
      .set v_enforced (.construct .Keyword)) ;;
    .ret (.var v_enforced)

/-- src/parser.rs lines 337-841: `fn parse_expr`. -/
def parse_expr : FunDef where
  params := [v_precedence, v_alias, v_as_table, v_after_dot, v_order]
  body :=
    .ite (.bvar v_after_dot) (
      .set v_left (.construct .Identifier)) (
      .set v_left (.construct .Unknown)) ;;
    .ite (.bvar v_as_table) (
      .set v_left (.call .parse_identifier [])) (
      .ite (.not (.bvar v_after_dot)) (
        .ite (.up (.lit 0) [.sym_star]) (
          .setType v_left .Asterisk ;;
          .ite (.up (.lit 1) [.REPLACE]) (
            .next ;;
            .set v_replace (.construct .KeywordWithGroupedXXX) ;;
            .next ;;
            .push v_replace .k_group (.call .parse_grouped_exprs [.bool true]) ;;
            .push v_left .k_replace (.var v_replace)) (
            .ite (.up (.lit 1) [.EXCEPT]) (
              .next ;;
              .set v_except (.construct .KeywordWithGroupedXXX) ;;
              .next ;;
              .push v_except .k_group (.call .parse_grouped_exprs [.bool false]) ;;
              .push v_left .k_except (.var v_except)) .skip)) (
          .ite (.up (.lit 0) [.sym_lparen]) (
            .next ;;
            .ite (.up (.lit 0) [.WITH, .SELECT]) (
              .setType v_left .GroupedStatement ;;
              .push v_left .k_stmt (.call .parse_select_statement [.bool false, .bool true]) ;;
              .next ;;
              .push v_left .k_rparen (.construct .Symbol)) (
              .ite (.up (.lit 0) [.sym_rparen]) (
                .setType v_left .EmptyStruct ;;
                .push v_left .k_rparen (.construct .Symbol)) (
                .set v_exprs (.call .parse_exprs [.kws [], .bool true, .bool true]) ;;
                .ite (.lenOne v_exprs) (
                  .setType v_left .GroupedExpr ;;
                  .push v_left .k_expr (.pop v_exprs)) (
                  .setType v_left .StructLiteral ;;
                  .pushVec v_left .k_exprs (.var v_exprs)) ;;
                .next ;;
                .push v_left .k_rparen (.construct .Symbol)))) (
            .ite (.up (.lit 0) [.STRUCT]) (
              .set v_type_ (.call .parse_type [.bool false, .bool false]) ;;
              .next ;;
              .set v_struct_literal (.construct .StructLiteral) ;;
              .set v_exprs .nilVec ;;
              .loop (
                .ite (.not (.up (.lit 1) [.sym_rparen])) (
                  .next ;;
                  .set v_expr (.call .parse_expr [.nat usizeMax, .bool true, .bool false, .bool false, .bool true]) ;;
                  .ite (.up (.lit 1) [.sym_comma]) (
                    .next ;;
                    .push v_expr .k_comma (.construct .Symbol)) .skip ;;
                  .append v_exprs (.var v_expr)) (
                  .brk)) ;;
              .next ;;
              .push v_struct_literal .k_rparen (.construct .Symbol) ;;
              .pushVec v_struct_literal .k_exprs (.var v_exprs) ;;
              .push v_struct_literal .k_type (.var v_type_) ;;
              .set v_left (.var v_struct_literal)) (
              .ite (.up (.lit 0) [.RANGE]) (
                .set v_type_ (.call .parse_type [.bool false, .bool false]) ;;
                .next ;;
                .set v_range_literal (.construct .RangeLiteral) ;;
                .push v_range_literal .k_type (.var v_type_) ;;
                .set v_left (.var v_range_literal)) (
                .ite (.up (.lit 0) [.sym_lbrack]) (
                  .setType v_left .ArrayLiteral ;;
                  .next ;;
                  .ite (.up (.lit 0) [.sym_rbrack]) (
                    .pushVec v_left .k_exprs .nilVec) (
                    .pushVec v_left .k_exprs (.call .parse_exprs [.kws [], .bool false, .bool true]) ;;
                    .next) ;;
                  .push v_left .k_rparen (.construct .Symbol)) (
                  .ite (.up (.lit 0) [.ARRAY]) (
                    .ite (.not (.up (.lit 1) [.sym_lparen])) (
                      .set v_type_ (.call .parse_type [.bool false, .bool false]) ;;
                      .next ;;
                      .set v_arr (.construct .ArrayLiteral) ;;
                      .next ;;
                      .ite (.up (.lit 0) [.sym_rbrack]) (
                        .pushVec v_arr .k_exprs .nilVec) (
                        .pushVec v_arr .k_exprs (.call .parse_exprs [.kws [], .bool false, .bool true]) ;;
                        .next) ;;
                      .push v_arr .k_rparen (.construct .Symbol) ;;
                      .push v_arr .k_type (.var v_type_) ;;
                      .set v_left (.var v_arr)) .skip) (
                    .ite (.up (.lit 0) [.sym_minus, .sym_plus, .sym_tilde]) (
                      .setType v_left .UnaryOperator ;;
                      .next ;;
                      .set v_right (.call .parse_expr [.nat 102, .bool false, .bool false, .bool false, .bool true]) ;;
                      .push v_left .k_right (.var v_right)) (
                      .ite (.up (.lit 0) [.DATE, .TIME, .DATETIME, .TIMESTAMP, .NUMERIC, .BIGNUMERIC, .DECIMAL, .BIGDECIMAL, .JSON]) (
                        .ite (.or (.isStr (.lit 1)) (.and (.up (.lit 1) [.B, .R, .BR, .RB]) (.isStr (.lit 2)))) (
                          .setType v_left .UnaryOperator ;;
                          .next ;;
                          .set v_right (.call .parse_expr [.nat 2, .bool false, .bool false, .bool false, .bool true]) ;;
                          .push v_left .k_right (.var v_right)) .skip) (
                        .ite (.up (.lit 0) [.INTERVAL]) (
                          .setType v_left .IntervalLiteral ;;
                          .next ;;
                          .set v_right (.call .parse_expr [.nat usizeMax, .bool false, .bool false, .bool false, .bool true]) ;;
                          .next ;;
                          .push v_left .k_date_part (.construct .Keyword) ;;
                          .ite (.up (.lit 1) [.TO]) (
                            .next ;;
                            .push v_left .k_to (.construct .Keyword) ;;
                            .next ;;
                            .push v_left .k_to_date_part (.construct .Keyword)) .skip ;;
                          .push v_left .k_expr (.var v_right)) (
                          .ite (.up (.lit 0) [.TABLE, .MODEL]) (
                            .setType v_left .UnaryOperator ;;
                            .next ;;
                            .set v_right (.call .parse_expr [.nat 2, .bool false, .bool true, .bool false, .bool true]) ;;
                            .push v_left .k_right (.var v_right)) (
                            .ite (.up (.lit 0) [.B, .R, .BR, .RB]) (
                              .ite (.isStr (.lit 1)) (
                                .next ;;
                                .set v_right (.call .parse_expr [.nat 1, .bool false, .bool false, .bool false, .bool true]) ;;
                                .push v_left .k_right (.var v_right) ;;
                                .setType v_left .UnaryOperator) .skip) (
                              .ite (.up (.lit 0) [.WITH]) (
                                .ite (.not (.up (.lit 1) [.sym_lparen])) (
                                  .set v_left (.call .parse_select_statement [.bool false, .bool true])) .skip) (
                                .ite (.up (.lit 0) [.SELECT]) (
                                  .set v_left (.call .parse_select_statement [.bool false, .bool true])) (
                                  .ite (.up (.lit 0) [.NOT]) (
                                    .next ;;
                                    .set v_right (.call .parse_expr [.nat 110, .bool false, .bool false, .bool false, .bool true]) ;;
                                    .push v_left .k_right (.var v_right) ;;
                                    .setType v_left .UnaryOperator) (
                                    .ite (.up (.lit 0) [.CASE]) (
                                      .setType v_left .CaseExpr ;;
                                      .next ;;
                                      .ite (.not (.up (.lit 0) [.WHEN])) (
                                        .push v_left .k_expr (.call .parse_expr [.nat usizeMax, .bool false, .bool false, .bool false, .bool true]) ;;
                                        .next) .skip ;;
                                      .set v_arms .nilVec ;;
                                      .loop (
                                        .ite (.up (.lit 0) [.WHEN]) (
                                          .set v_arm (.construct .CaseExprArm) ;;
                                          .next ;;
                                          .push v_arm .k_expr (.call .parse_expr [.nat usizeMax, .bool false, .bool false, .bool false, .bool true]) ;;
                                          .next ;;
                                          .push v_arm .k_then (.construct .Keyword) ;;
                                          .next ;;
                                          .push v_arm .k_result (.call .parse_expr [.nat usizeMax, .bool false, .bool false, .bool false, .bool true]) ;;
                                          .next ;;
                                          .append v_arms (.var v_arm)) (
                                          .brk)) ;;
                                      .ite (.up (.lit 0) [.ELSE]) (
                                        .set v_else_ (.construct .CaseExprArm) ;;
                                        .next ;;
                                        .push v_else_ .k_result (.call .parse_expr [.nat usizeMax, .bool false, .bool false, .bool false, .bool true]) ;;
                                        .append v_arms (.var v_else_) ;;
                                        .next) .skip ;;
                                      .pushVec v_left .k_arms (.var v_arms) ;;
                                      .push v_left .k_end (.construct .Keyword)) .skip))))))))))))))) .skip) ;;
    .loop (
      .ite (.precLt v_precedence) (
        .ite (.up (.lit 1) [.sym_lparen]) (
          .set v_func (.upperLit (.lit 0)) ;;
          .next ;;
          .set v_node (.construct .CallingFunction) ;;
          .ite (.up (.lit 1) [.DISTINCT]) (
            .next ;;
            .push v_node .k_distinct (.construct .Keyword)) .skip ;;
          .next ;;
          .push v_node .k_func (.var v_left) ;;
          .ite (.not (.up (.lit 0) [.sym_rparen])) (
            .ite (.or (.strIs v_func .CAST) (.strIs v_func .SAFE_CAST)) (
              .set v_cast_from (.call .parse_expr [.nat usizeMax, .bool false, .bool false, .bool false, .bool true]) ;;
              .next ;;
              .set v_as_ (.construct .CastArgument) ;;
              .push v_as_ .k_cast_from (.var v_cast_from) ;;
              .next ;;
              .push v_as_ .k_cast_to (.call .parse_type [.bool false, .bool false]) ;;
              .ite (.up (.lit 1) [.FORMAT]) (
                .next ;;
                .set v_format (.construct .KeywordWithExpr) ;;
                .next ;;
                .push v_format .k_expr (.call .parse_expr [.nat usizeMax, .bool false, .bool false, .bool false, .bool true]) ;;
                .push v_as_ .k_format (.var v_format)) .skip ;;
              .set v_vec_tmp .nilVec ;;
              .append v_vec_tmp (.var v_as_) ;;
              .set v_vec_tmp (.var v_vec_tmp) ;;
              .pushVec v_node .k_args (.var v_vec_tmp)) (
              .ite (.strIs v_func .EXTRACT) (
                .set v_datepart (.call .parse_expr [.nat usizeMax, .bool false, .bool false, .bool false, .bool true]) ;;
                .next ;;
                .set v_from (.construct .ExtractArgument) ;;
                .next ;;
                .push v_from .k_extract_datepart (.var v_datepart) ;;
                .push v_from .k_extract_from (.call .parse_expr [.nat usizeMax, .bool false, .bool false, .bool false, .bool true]) ;;
                .ite (.up (.lit 1) [.AT]) (
                  .set v_at_time_zone .nilVec ;;
                  .next ;;
                  .append v_at_time_zone (.construct .Keyword) ;;
                  .next ;;
                  .append v_at_time_zone (.construct .Keyword) ;;
                  .next ;;
                  .append v_at_time_zone (.construct .Keyword) ;;
                  .pushVec v_from .k_at_time_zone (.var v_at_time_zone) ;;
                  .next ;;
                  .push v_from .k_time_zone (.call .parse_expr [.nat usizeMax, .bool false, .bool false, .bool false, .bool true])) .skip ;;
                .set v_vec_tmp .nilVec ;;
                .append v_vec_tmp (.var v_from) ;;
                .set v_vec_tmp (.var v_vec_tmp) ;;
                .pushVec v_node .k_args (.var v_vec_tmp)) (
                .pushVec v_node .k_args (.call .parse_exprs [.kws [], .strEq v_func .WITH, .bool true]))) ;;
            .ite (.up (.lit 1) [.RESPECT, .IGNORE]) (
              .next ;;
              .set v_ignore_or_respect (.construct .Keyword) ;;
              .next ;;
              .set v_vec_tmp .nilVec ;;
              .append v_vec_tmp (.var v_ignore_or_respect) ;;
              .append v_vec_tmp (.construct .Keyword) ;;
              .set v_vec_tmp (.var v_vec_tmp) ;;
              .pushVec v_node .k_ignore_nulls (.var v_vec_tmp)) .skip ;;
            .ite (.up (.lit 1) [.ORDER]) (
              .next ;;
              .set v_orderby (.construct .XXXByExprs) ;;
              .next ;;
              .push v_orderby .k_by (.construct .Keyword) ;;
              .next ;;
              .pushVec v_orderby .k_exprs (.call .parse_exprs [.kws [], .bool false, .bool true]) ;;
              .push v_node .k_orderby (.var v_orderby)) .skip ;;
            .ite (.up (.lit 1) [.LIMIT]) (
              .next ;;
              .set v_limit (.construct .KeywordWithExpr) ;;
              .next ;;
              .push v_limit .k_expr (.call .parse_expr [.nat usizeMax, .bool false, .bool false, .bool false, .bool true]) ;;
              .push v_node .k_limit (.var v_limit)) .skip ;;
            .ite (.up (.lit 1) [.HAVING]) (
              .next ;;
              .set v_having (.construct .KeywordSequence) ;;
              .next ;;
              .set v_max (.construct .KeywordWithExpr) ;;
              .next ;;
              .push v_max .k_expr (.call .parse_expr [.nat usizeMax, .bool false, .bool false, .bool false, .bool true]) ;;
              .push v_having .k_next_keyword (.var v_max) ;;
              .push v_node .k_having (.var v_having)) .skip ;;
            .next) .skip ;;
          .push v_node .k_rparen (.construct .Symbol) ;;
          .ite (.up (.lit 1) [.OVER]) (
            .next ;;
            .set v_over (.construct .OverClause) ;;
            .next ;;
            .push v_over .k_window (.call .parse_window_expr []) ;;
            .push v_node .k_over (.var v_over)) .skip ;;
          .set v_left (.var v_node)) (
          .ite (.up (.lit 1) [.sym_lbrack]) (
            .next ;;
            .set v_node (.construct .AccessOperator) ;;
            .push v_node .k_left (.var v_left) ;;
            .next ;;
            .push v_node .k_right (.call .parse_expr [.nat usizeMax, .bool false, .bool false, .bool false, .bool true]) ;;
            .next ;;
            .push v_node .k_rparen (.construct .Symbol) ;;
            .set v_left (.var v_node)) (
            .ite (.up (.lit 1) [.sym_dot]) (
              .next ;;
              .set v_is_chained_function (.cond (.and (.not (.leftmostIs v_left .Identifier)) (.or (.up (.lit 1) [.sym_lparen]) (.up (.lit 2) [.sym_lparen])))) ;;
              .ite (.bvar v_is_chained_function) (
                .set v_precedence_1 (.prec (.lit 0))) (
                .set v_precedence_1 (.natLit 101)) ;;
              .ite (.bvar v_is_chained_function) (
                .set v_dot (.construct .FunctionChain)) (
                .set v_dot (.construct .DotOperator)) ;;
              .next ;;
              .push v_dot .k_left (.var v_left) ;;
              .ite (.raw (.lit 0) [.sym_star]) (
                .push v_dot .k_right (.call .parse_expr [.nat usizeMax, .bool false, .bool false, .bool false, .bool true])) (
                .push v_dot .k_right (.call .parse_expr [.var v_precedence_1, .bool false, .var v_as_table, .notVar v_is_chained_function, .bool true])) ;;
              .set v_left (.var v_dot)) (
              .ite (.up (.lit 1) [.sym_star, .sym_slash, .sym_concat, .sym_plus, .sym_minus, .sym_shl, .sym_shr, .sym_amp, .sym_caret, .sym_bar, .sym_eq, .sym_lt, .sym_gt, .sym_le, .sym_ge, .sym_ltgt, .sym_ne, .LIKE, .AND, .OR, .sym_arrow]) (
                .next ;;
                .set v_left (.call .parse_binary_operator [.var v_left])) (
                .ite (.up (.lit 1) [.IS]) (
                  .next ;;
                  .ite (.or (.up (.lit 1) [.DISTINCT]) (.and (.up (.lit 1) [.NOT]) (.up (.lit 2) [.DISTINCT]))) (
                    .set v_left (.call .parse_is_distinct_from_operator [.var v_left])) (
                    .set v_left (.call .parse_binary_operator [.var v_left]))) (
                  .ite (.up (.lit 1) [.BETWEEN]) (
                    .next ;;
                    .set v_left (.call .parse_between_operator [.var v_left])) (
                    .ite (.up (.lit 1) [.IN]) (
                      .next ;;
                      .set v_left (.call .parse_in_operator [.var v_left])) (
                      .ite (.up (.lit 1) [.NOT]) (
                        .next ;;
                        .set v_not (.construct .Keyword) ;;
                        .next ;;
                        .ite (.up (.lit 0) [.IN]) (
                          .set v_left (.call .parse_in_operator [.var v_left]) ;;
                          .push v_left .k_not (.var v_not)) (
                          .ite (.up (.lit 0) [.LIKE]) (
                            .set v_left (.call .parse_binary_operator [.var v_left]) ;;
                            .push v_left .k_not (.var v_not)) (
                            .ite (.up (.lit 0) [.BETWEEN]) (
                              .set v_left (.call .parse_between_operator [.var v_left]) ;;
                              .push v_left .k_not (.var v_not)) (
                              .fail (.lit 1) 789)))) (
                        .fail (.lit 0) 799))))))))) (
        .brk)) ;;
    .ite (.bvar v_alias) (
      .ite (.up (.lit 1) [.AS]) (
        .next ;;
        .push v_left .k_as (.construct .Keyword) ;;
        .next ;;
        .push v_left .k_alias (.call .parse_expr [.nat usizeMax, .bool false, .bool false, .bool false, .bool false])) (
        .ite (.isIdent (.lit 1)) (
          .next ;;
          .push v_left .k_alias (.construct .Identifier)) .skip)) .skip ;;
    .ite (.bvar v_order) (
      .ite (.up (.lit 1) [.ASC, .DESC]) (
        .next ;;
        .set v_order_1 (.construct .Keyword) ;;
        .push v_left .k_order (.var v_order_1)) .skip ;;
      .ite (.and (.up (.lit 1) [.NULLS]) (.up (.lit 2) [.FIRST, .LAST])) (
        .set v_nulls_first .nilVec ;;
        .next ;;
        .append v_nulls_first (.construct .Keyword) ;;
        .next ;;
        .append v_nulls_first (.construct .Keyword) ;;
        .pushVec v_left .k_null_order (.var v_nulls_first)) .skip) .skip ;;
    .ret (.var v_left)

/-- src/parser.rs lines 842-872: `fn parse_exprs`. -/
def parse_exprs : FunDef where
  params := [v_until, v_alias, v_order]
  body :=
    .set v_exprs .nilVec ;;
    .set v_expr (.call .parse_expr [.nat usizeMax, .var v_alias, .bool false, .bool false, .var v_order]) ;;
    .ite (.up (.lit 1) [.sym_comma]) (
      .next ;;
      .push v_expr .k_comma (.construct .Symbol)) (
      .set v_vec_tmp .nilVec ;;
      .append v_vec_tmp (.var v_expr) ;;
      .set v_vec_tmp (.var v_vec_tmp) ;;
      .ret (.var v_vec_tmp)) ;;
    .append v_exprs (.var v_expr) ;;
    .loop (
      .ite (.and (.not (.upVar (.lit 1) v_until)) (.not (.eof (.lit 1)))) (
        .next ;;
        .set v_expr_1 (.call .parse_expr [.nat usizeMax, .var v_alias, .bool false, .bool false, .bool true]) ;;
        .ite (.up (.lit 1) [.sym_comma]) (
          .next ;;
          .push v_expr_1 .k_comma (.construct .Symbol) ;;
          .append v_exprs (.var v_expr_1)) (
          .append v_exprs (.var v_expr_1) ;;
          .brk)) (
        .brk)) ;;
    .ret (.var v_exprs)

/-- src/parser.rs lines 873-882: `fn parse_grouped_exprs`. -/
def parse_grouped_exprs : FunDef where
  params := [v_alias]
  body :=
    .set v_group (.construct .GroupedExprs) ;;
    .ite (.not (.up (.lit 1) [.sym_rparen])) (
      .next ;;
      .pushVec v_group .k_exprs (.call .parse_exprs [.kws [.sym_rparen], .var v_alias, .bool true])) .skip ;;
    .next ;;
    .push v_group .k_rparen (.construct .Symbol) ;;
    .ret (.var v_group)

/-- src/parser.rs lines 883-935: `fn parse_grouped_type_declaration_or_constraints`. -/
def parse_grouped_type_declaration_or_constraints : FunDef where
  params := [v_schema, v_aggregate]
  body :=
    .set v_group (.construct .GroupedTypeDeclarationOrConstraints) ;;
    .next ;;
    .set v_type_declarations .nilVec ;;
    .set v_marker_tokens (.kws [.sym_comma, .sym_gt, .sym_rparen, .TYPE, .sym_lt]) ;;
    .loop (
      .ite (.not (.up (.lit 0) [.sym_gt, .sym_rparen])) (
        .ite (.and (.up (.lit 0) [.IN, .OUT, .INOUT]) (.not (.upVar (.lit 2) v_marker_tokens))) (
          .set v_in_out (.construct .Keyword) ;;
          .next ;;
          .set v_type_declaration (.construct .TypeDeclaration) ;;
          .push v_type_declaration .k_in_out (.var v_in_out) ;;
          .next ;;
          .push v_type_declaration .k_type (.call .parse_type [.var v_schema, .var v_aggregate])) (
          .ite (.or (.or (.and (.up (.lit 0) [.PRIMARY]) (.up (.lit 1) [.KEY])) (.and (.up (.lit 0) [.FOREIGN]) (.up (.lit 1) [.KEY]))) (.and (.up (.lit 0) [.CONSTRAINT]) (.not (.upVar (.lit 2) v_marker_tokens)))) (
            .set v_type_declaration (.call .parse_constraint [])) (
            .ite (.not (.upVar (.lit 1) v_marker_tokens)) (
              .set v_type_declaration (.construct .TypeDeclaration) ;;
              .next ;;
              .push v_type_declaration .k_type (.call .parse_type [.var v_schema, .var v_aggregate])) (
              .set v_type_declaration (.empty .TypeDeclaration) ;;
              .push v_type_declaration .k_type (.call .parse_type [.var v_schema, .var v_aggregate])))) ;;
        .next ;;
        .ite (.up (.lit 0) [.sym_comma]) (
          .push v_type_declaration .k_comma (.construct .Symbol) ;;
          .next) .skip ;;
        .append v_type_declarations (.var v_type_declaration)) (
        .brk)) ;;
    .ite (.lenPos v_type_declarations) (
      .pushVec v_group .k_declarations (.var v_type_declarations)) .skip ;;
    .push v_group .k_rparen (.construct .Symbol) ;;
    .ret (.var v_group)

/-- src/parser.rs lines 936-982: `fn parse_identifier`. -/
def parse_identifier : FunDef where
  params := []
  body :=
    .set v_left (.call .parse_single_or_multi_token_identifier []) ;;
    .loop (
      .ite (.up (.lit 1) [.sym_dot]) (
        .next ;;
        .set v_operator (.construct .DotOperator) ;;
        .push v_operator .k_left (.var v_left) ;;
        .next ;;
        .push v_operator .k_right (.call .parse_single_or_multi_token_identifier []) ;;
        .set v_left (.var v_operator)) (
        .brk)) ;;
    .ret (.var v_left)

/-- src/parser.rs lines 940-970: `fn parse_single_or_multi_token_identifier`. -/
def parse_single_or_multi_token_identifier : FunDef where
  params := []
  body :=
    .set v_root (.construct .Identifier) ;;
    .set v_trailing_idents .nilVec ;;
    .loop (
      .ite (.firstCharIs '`') (
        .brk) .skip ;;
      .ite (.hasTok (.lit 1)) (
        .skip) (
        .brk) ;;
      .ite (.up (.lit 1) [.sym_comma, .sym_dot, .sym_lparen, .sym_rparen, .sym_semi]) (
        .brk) .skip ;;
      .ite (.and (.not (.lastCharIs '.')) (.not .adjacent)) (
        .brk) .skip ;;
      .next ;;
      .append v_trailing_idents (.construct .Identifier)) ;;
    .ite (.lenPos v_trailing_idents) (
      .setType v_root .MultiTokenIdentifier ;;
      .pushVec v_root .k_trailing_idents (.var v_trailing_idents)) .skip ;;
    .ret (.var v_root)

/-- src/parser.rs lines 983-1008: `fn parse_in_operator`. -/
def parse_in_operator : FunDef where
  params := [v_left]
  body :=
    .set v_node (.construct .InOperator) ;;
    .push v_node .k_left (.var v_left) ;;
    .ite (.up (.lit 1) [.UNNEST]) (
      .next ;;
      .set v_unnest (.call .parse_expr [.nat 102, .bool false, .bool false, .bool false, .bool true]) ;;
      .setType v_unnest .CallingUnnest ;;
      .push v_node .k_right (.var v_unnest)) (
      .next ;;
      .ite (.up (.lit 1) [.SELECT, .WITH]) (
        .set v_lparen (.construct .GroupedStatement) ;;
        .next ;;
        .push v_lparen .k_stmt (.call .parse_select_statement [.bool false, .bool true]) ;;
        .next ;;
        .push v_lparen .k_rparen (.construct .Symbol) ;;
        .push v_node .k_right (.var v_lparen)) (
        .push v_node .k_right (.call .parse_grouped_exprs [.bool false]))) ;;
    .ret (.var v_node)

/-- src/parser.rs lines 1009-1027: `fn parse_is_distinct_from_operator`. -/
def parse_is_distinct_from_operator : FunDef where
  params := [v_left]
  body :=
    .set v_precedence (.prec (.lit 0)) ;;
    .set v_node (.construct .IsDistinctFromOperator) ;;
    .push v_node .k_left (.var v_left) ;;
    .ite (.up (.lit 1) [.NOT]) (
      .next ;;
      .push v_node .k_not (.construct .Keyword)) .skip ;;
    .next ;;
    .push v_node .k_distinct (.construct .Keyword) ;;
    .next ;;
    .push v_node .k_from (.construct .Keyword) ;;
    .next ;;
    .push v_node .k_right (.call .parse_expr [.var v_precedence, .bool false, .bool false, .bool false, .bool true]) ;;
    .ret (.var v_node)

/-- src/parser.rs lines 1028-1033: `fn parse_keyword_with_grouped_exprs`. -/
def parse_keyword_with_grouped_exprs : FunDef where
  params := [v_alias]
  body :=
    .set v_keyword (.construct .KeywordWithGroupedXXX) ;;
    .next ;;
    .push v_keyword .k_group (.call .parse_grouped_exprs [.var v_alias]) ;;
    .ret (.var v_keyword)

/-- src/parser.rs lines 1034-1043: `fn parse_keyword_with_statements`. -/
def parse_keyword_with_statements : FunDef where
  params := [v_until]
  body :=
    .set v_node (.construct .KeywordWithStatements) ;;
    .set v_stmts .nilVec ;;
    .loop (
      .ite (.not (.upVar (.lit 1) v_until)) (
        .next ;;
        .append v_stmts (.call .parse_statement [.bool true])) (
        .brk)) ;;
    .pushVec v_node .k_stmts (.var v_stmts) ;;
    .ret (.var v_node)

/-- src/parser.rs lines 1044-1052: `fn parse_n_keywords`. -/
def parse_n_keywords : FunDef where
  params := [v_n]
  body :=
    .set v_nodes .nilVec ;;
    .append v_nodes (.construct .Keyword) ;;
    .scan v_i 1 (some (.var v_n)) (
      .next ;;
      .append v_nodes (.construct .Keyword)) ;;
    .ret (.var v_nodes)

/-- src/parser.rs lines 1053-1092: `fn parse_set_operator`. -/
def parse_set_operator : FunDef where
  params := [v_left]
  body :=
    .ite (.up (.lit 0) [.INNER, .FULL, .LEFT, .OUTER]) (
      .ite (.up (.lit 1) [.OUTER]) (
        .set v_method (.construct .KeywordSequence) ;;
        .next ;;
        .set v_outer (.construct .Keyword) ;;
        .push v_method .k_next_keyword (.var v_outer)) (
        .set v_method (.construct .Keyword)) ;;
      .next ;;
      .set v_operator (.construct .SetOperator) ;;
      .push v_operator .k_method (.var v_method)) (
      .set v_operator (.construct .SetOperator)) ;;
    .next ;;
    .push v_operator .k_distinct_or_all (.construct .Keyword) ;;
    .ite (.up (.lit 1) [.BY]) (
      .next ;;
      .push v_operator .k_by (.call .parse_by_name_clause [])) (
      .ite (.up (.lit 1) [.STRICT, .CORRESPONDING]) (
        .next ;;
        .push v_operator .k_corresponding (.call .parse_corresponding_clause [])) .skip) ;;
    .push v_operator .k_left (.var v_left) ;;
    .next ;;
    .push v_operator .k_right (.call .parse_select_statement [.bool false, .bool false]) ;;
    .ret (.var v_operator)

/-- src/parser.rs lines 1093-1228: `fn parse_statement`. -/
def parse_statement : FunDef where
  params := [v_semicolon]
  body :=
    .ite (.up (.lit 0) [.WITH, .SELECT, .sym_lparen]) (
      .set v_node (.call .parse_select_statement [.var v_semicolon, .bool true])) (
      .ite (.up (.lit 0) [.FROM]) (
        .set v_node (.call .parse_from_statement [])) (
        .ite (.up (.lit 0) [.INSERT]) (
          .set v_node (.call .parse_insert_statement [.var v_semicolon])) (
          .ite (.up (.lit 0) [.DELETE]) (
            .set v_node (.call .parse_delete_statement [.var v_semicolon])) (
            .ite (.up (.lit 0) [.TRUNCATE]) (
              .set v_node (.call .parse_truncate_statement [.var v_semicolon])) (
              .ite (.up (.lit 0) [.UPDATE]) (
                .set v_node (.call .parse_update_statement [.var v_semicolon])) (
                .ite (.up (.lit 0) [.MERGE]) (
                  .set v_node (.call .parse_merge_statement [.var v_semicolon])) (
                  .ite (.up (.lit 0) [.CREATE]) (
                    .scan v_offset 1 (some (.nat 6)) (
                      .ite (.up (.var v_offset 0) [.SCHEMA]) (
                        .ret (.call .parse_create_schema_statement [.var v_semicolon])) (
                        .ite (.up (.var v_offset 0) [.TABLE]) (
                          .ite (.up (.var v_offset 1) [.FUNCTION]) (
                            .ret (.call .parse_create_function_statement [.var v_semicolon])) (
                            .ret (.call .parse_create_table_statement [.var v_semicolon]))) (
                          .ite (.up (.var v_offset 0) [.VIEW]) (
                            .ret (.call .parse_create_view_statement [.var v_semicolon])) (
                            .ite (.up (.var v_offset 0) [.FUNCTION]) (
                              .ret (.call .parse_create_function_statement [.var v_semicolon])) (
                              .ite (.up (.var v_offset 0) [.PROCEDURE]) (
                                .ret (.call .parse_create_procedure_statement [.var v_semicolon])) (
                                .ite (.up (.var v_offset 0) [.ROW]) (
                                  .ret (.call .parse_create_row_access_policy_statement [.var v_semicolon])) (
                                  .ite (.up (.var v_offset 0) [.CAPACITY, .RESERVATION, .ASSIGNMENT]) (
                                    .ret (.call .parse_create_reservation_statement [.var v_semicolon])) (
                                    .ite (.up (.var v_offset 0) [.SEARCH, .VECTOR]) (
                                      .ret (.call .parse_create_search_index_statement [.var v_semicolon])) (
                                      .ite (.up (.var v_offset 0) [.MODEL]) (
                                        .ret (.call .parse_create_model_statement [.var v_semicolon])) .skip))))))))) ;;
                    .fail (.lit 0) 1141) (
                    .ite (.up (.lit 0) [.ALTER]) (
                      .scan v_offset 1 (some (.nat 6)) (
                        .ite (.up (.var v_offset 0) [.SCHEMA]) (
                          .ret (.call .parse_alter_schema_statement [.var v_semicolon])) (
                          .ite (.up (.var v_offset 0) [.TABLE]) (
                            .ret (.call .parse_alter_table_statement [.var v_semicolon])) (
                            .ite (.up (.var v_offset 0) [.COLUMN]) (
                              .ret (.call .parse_alter_column_statement [.var v_semicolon])) (
                              .ite (.up (.var v_offset 0) [.VIEW]) (
                                .ret (.call .parse_alter_view_statement [.var v_semicolon])) (
                                .ite (.up (.var v_offset 0) [.VECTOR]) (
                                  .ret (.call .parse_alter_vector_index_statement [.var v_semicolon])) (
                                  .ite (.up (.var v_offset 0) [.ORGANIZATION]) (
                                    .ret (.call .parse_alter_organization_statement [.var v_semicolon])) (
                                    .ite (.up (.var v_offset 0) [.PROJECT]) (
                                      .ret (.call .parse_alter_project_statement [.var v_semicolon])) (
                                      .ite (.up (.var v_offset 0) [.BI_CAPACITY]) (
                                        .ret (.call .parse_alter_bicapacity_statement [.var v_semicolon])) (
                                        .ite (.up (.var v_offset 0) [.CAPACITY, .RESERVATION]) (
                                          .ret (.call .parse_alter_reservation_statement [.var v_semicolon])) (
                                          .ite (.up (.var v_offset 0) [.MODEL]) (
                                            .ret (.call .parse_alter_model_statement [.var v_semicolon])) .skip)))))))))) ;;
                      .fail (.lit 0) 1172) (
                      .ite (.up (.lit 0) [.DROP]) (
                        .ite (.up (.lit 1) [.ALL, .ROW]) (
                          .set v_node (.call .parse_drop_row_access_policy_statement [.var v_semicolon])) (
                          .set v_node (.call .parse_drop_statement_general [.var v_semicolon]))) (
                        .ite (.up (.lit 0) [.UNDROP]) (
                          .set v_node (.call .parse_undrop_statement [.var v_semicolon])) (
                          .ite (.up (.lit 0) [.GRANT]) (
                            .set v_node (.call .parse_grant_statement [.var v_semicolon])) (
                            .ite (.up (.lit 0) [.REVOKE]) (
                              .set v_node (.call .parse_revoke_statement [.var v_semicolon])) (
                              .ite (.up (.lit 0) [.DECLARE]) (
                                .set v_node (.call .parse_declare_statement [.var v_semicolon])) (
                                .ite (.up (.lit 0) [.SET]) (
                                  .set v_node (.call .parse_set_statement [.var v_semicolon])) (
                                  .ite (.up (.lit 0) [.EXECUTE]) (
                                    .set v_node (.call .parse_execute_statement [.var v_semicolon])) (
                                    .ite (.up (.lit 0) [.IF]) (
                                      .set v_node (.call .parse_if_statement [.var v_semicolon])) (
                                      .ite (.up (.lit 0) [.BEGIN]) (
                                        .ite (.or (.up (.lit 1) [.TRANSACTION, .sym_semi]) (.eof (.lit 1))) (
                                          .ret (.call .parse_transaction_statement [.var v_semicolon])) .skip ;;
                                        .set v_node (.call .parse_begin_statement [.var v_semicolon])) (
                                        .ite (.up (.lit 0) [.CASE]) (
                                          .set v_node (.call .parse_case_statement [.var v_semicolon])) (
                                          .ite (.up (.lit 0) [.LOAD]) (
                                            .set v_node (.call .parse_load_statement [.var v_semicolon])) (
                                            .ite (.up (.lit 0) [.LOOP]) (
                                              .set v_node (.call .parse_loop_statement [.var v_semicolon])) (
                                              .ite (.up (.lit 0) [.REPEAT]) (
                                                .set v_node (.call .parse_repeat_statement [.var v_semicolon])) (
                                                .ite (.up (.lit 0) [.WHILE]) (
                                                  .set v_node (.call .parse_while_statement [.var v_semicolon])) (
                                                  .ite (.up (.lit 0) [.BREAK, .LEAVE, .CONTINUE, .ITERATE]) (
                                                    .set v_node (.call .parse_break_continue_statement [.var v_semicolon])) (
                                                    .ite (.up (.lit 0) [.FOR]) (
                                                      .set v_node (.call .parse_for_statement [.var v_semicolon])) (
                                                      .ite (.up (.lit 0) [.COMMIT, .ROLLBACK]) (
                                                        .set v_node (.call .parse_transaction_statement [.var v_semicolon])) (
                                                        .ite (.up (.lit 0) [.RAISE]) (
                                                          .set v_node (.call .parse_raise_statement [.var v_semicolon])) (
                                                          .ite (.up (.lit 0) [.RETURN]) (
                                                            .set v_node (.call .parse_single_token_statement [.var v_semicolon])) (
                                                            .ite (.up (.lit 0) [.CALL]) (
                                                              .set v_node (.call .parse_call_statement [.var v_semicolon])) (
                                                              .ite (.up (.lit 0) [.ASSERT]) (
                                                                .set v_node (.call .parse_assert_satement [.var v_semicolon])) (
                                                                .ite (.up (.lit 0) [.EXPORT]) (
                                                                  .ite (.up (.lit 1) [.DATA]) (
                                                                    .set v_node (.call .parse_export_data_statement [.var v_semicolon])) (
                                                                    .set v_node (.call .parse_export_model_statement [.var v_semicolon]))) (
                                                                  .set v_node (.call .parse_labeled_statement [.var v_semicolon])))))))))))))))))))))))))))))))) ;;
    .ret (.var v_node)

/-- src/parser.rs lines 1229-1415: `fn parse_table`. -/
def parse_table : FunDef where
  params := [v_root]
  body :=
    .ite (.up (.lit 0) [.sym_lparen]) (
      .set v_statement_flg (.boolLit false) ;;
      .scan v_offset 1 none (
        .ite (.up (.var v_offset 0) [.WITH, .SELECT, .FROM]) (
          .set v_statement_flg (.boolLit true) ;;
          .brk) (
          .ite (.not (.up (.var v_offset 0) [.sym_lparen])) (
            .brk) .skip)) ;;
      .ite (.bvar v_statement_flg) (
        .tryElse v_group .parse_select_statement [.bool false, .bool false] (
          .set v_group_1 (.construct .GroupedExpr) ;;
          .next ;;
          .push v_group_1 .k_expr (.call .parse_table [.bool true]) ;;
          .next ;;
          .push v_group_1 .k_rparen (.construct .Symbol) ;;
          .set v_group (.var v_group_1))) (
        .set v_group (.construct .GroupedExpr) ;;
        .next ;;
        .push v_group .k_expr (.call .parse_table [.bool true]) ;;
        .next ;;
        .push v_group .k_rparen (.construct .Symbol)) ;;
      .set v_left (.var v_group)) (
      .ite (.up (.lit 0) [.UNNEST]) (
        .set v_left (.call .parse_expr [.nat usizeMax, .bool false, .bool false, .bool false, .bool true]) ;;
        .setType v_left .CallingUnnest) (
        .set v_left (.call .parse_expr [.nat usizeMax, .bool false, .bool true, .bool false, .bool true]))) ;;
    .ite (.typeIs v_left .CallingFunction) (
      .setType v_left .CallingTableFunction) .skip ;;
    .ite (.not (.and (.up (.lit 1) [.PIVOT, .UNPIVOT, .MATCH_RECOGNIZE]) (.up (.lit 2) [.sym_lparen, .INCLUDE, .EXCLUDE]))) (
      .set v_left (.call .push_trailing_alias [.var v_left])) .skip ;;
    .ite (.up (.lit 1) [.FOR]) (
      .next ;;
      .set v_for_ (.construct .ForSystemTimeAsOfClause) ;;
      .next ;;
      .set v_system_time_as_of .nilVec ;;
      .append v_system_time_as_of (.construct .Keyword) ;;
      .next ;;
      .append v_system_time_as_of (.construct .Keyword) ;;
      .next ;;
      .append v_system_time_as_of (.construct .Keyword) ;;
      .pushVec v_for_ .k_system_time_as_of (.var v_system_time_as_of) ;;
      .next ;;
      .push v_for_ .k_expr (.call .parse_expr [.nat usizeMax, .bool false, .bool false, .bool false, .bool true]) ;;
      .push v_left .k_for_system_time_as_of (.var v_for_)) .skip ;;
    .ite (.up (.lit 1) [.WITH]) (
      .next ;;
      .set v_with (.construct .WithOffsetClause) ;;
      .next ;;
      .push v_with .k_offset (.construct .Keyword) ;;
      .ite (.up (.lit 1) [.AS]) (
        .next ;;
        .push v_with .k_as (.construct .Keyword) ;;
        .next ;;
        .push v_with .k_alias (.construct .Identifier)) (
        .ite (.isIdent (.lit 1)) (
          .next ;;
          .push v_with .k_alias (.construct .Identifier)) .skip) ;;
      .push v_left .k_with_offset (.var v_with)) .skip ;;
    .ite (.up (.lit 1) [.PIVOT]) (
      .next ;;
      .set v_pivot (.construct .PivotOperator) ;;
      .next ;;
      .push v_pivot .k_config (.call .parse_pivot_config_clause []) ;;
      .set v_pivot (.call .push_trailing_alias [.var v_pivot]) ;;
      .push v_left .k_pivot (.var v_pivot)) (
      .ite (.up (.lit 1) [.UNPIVOT]) (
        .next ;;
        .set v_unpivot (.construct .UnpivotOperator) ;;
        .ite (.up (.lit 1) [.INCLUDE, .EXCLUDE]) (
          .next ;;
          .pushVec v_unpivot .k_include_or_exclude_nulls (.call .parse_n_keywords [.nat 2])) .skip ;;
        .next ;;
        .push v_unpivot .k_config (.call .parse_unpivot_config_clause []) ;;
        .set v_unpivot (.call .push_trailing_alias [.var v_unpivot]) ;;
        .push v_left .k_unpivot (.var v_unpivot)) (
        .ite (.up (.lit 1) [.MATCH_RECOGNIZE]) (
          .next ;;
          .push v_left .k_match_recognize (.call .parse_match_recognize_clause [])) .skip)) ;;
    .ite (.up (.lit 1) [.TABLESAMPLE]) (
      .next ;;
      .set v_tablesample (.construct .TableSampleClause) ;;
      .next ;;
      .push v_tablesample .k_system (.construct .Keyword) ;;
      .next ;;
      .push v_tablesample .k_group (.call .parse_table_sample_ratio []) ;;
      .push v_left .k_tablesample (.var v_tablesample)) .skip ;;
    .loop (
      .ite (.and (.up (.lit 1) [.LEFT, .RIGHT, .CROSS, .INNER, .FULL, .JOIN, .sym_comma]) (.bvar v_root)) (
        .next ;;
        .ite (.up (.lit 0) [.JOIN, .sym_comma]) (
          .set v_join (.construct .JoinOperator)) (
          .set v_type_ (.construct .Keyword) ;;
          .next ;;
          .ite (.up (.lit 0) [.OUTER]) (
            .set v_outer (.construct .Keyword) ;;
            .next ;;
            .set v_join (.construct .JoinOperator) ;;
            .push v_join .k_join_type (.var v_type_) ;;
            .push v_join .k_outer (.var v_outer)) (
            .set v_join (.construct .JoinOperator) ;;
            .push v_join .k_join_type (.var v_type_))) ;;
        .next ;;
        .set v_right (.call .parse_table [.bool false]) ;;
        .ite (.up (.lit 1) [.ON]) (
          .next ;;
          .set v_on (.construct .KeywordWithExpr) ;;
          .next ;;
          .push v_on .k_expr (.call .parse_expr [.nat usizeMax, .bool false, .bool false, .bool false, .bool true]) ;;
          .push v_join .k_on (.var v_on)) (
          .ite (.up (.lit 1) [.USING]) (
            .next ;;
            .push v_join .k_using (.call .parse_expr [.nat usizeMax, .bool false, .bool false, .bool false, .bool true])) .skip) ;;
        .push v_join .k_left (.var v_left) ;;
        .push v_join .k_right (.var v_right) ;;
        .set v_left (.var v_join)) (
        .brk)) ;;
    .ret (.var v_left)

/-- src/parser.rs lines 1416-1557: `fn parse_type`. -/
def parse_type : FunDef where
  params := [v_schema, v_aggregate]
  body :=
    .ite (.up (.lit 0) [.ARRAY, .RANGE]) (
      .set v_res (.construct .Type) ;;
      .ite (.raw (.lit 1) [.sym_lt]) (
        .next ;;
        .set v_type_ (.construct .GroupedType) ;;
        .next ;;
        .push v_type_ .k_type (.call .parse_type [.var v_schema, .bool false]) ;;
        .next ;;
        .push v_type_ .k_rparen (.construct .Symbol) ;;
        .push v_res .k_type_declaration (.var v_type_)) .skip) (
      .ite (.up (.lit 0) [.STRUCT, .TABLE]) (
        .set v_res (.construct .Type) ;;
        .ite (.raw (.lit 1) [.sym_lt]) (
          .next ;;
          .set v_type_ (.construct .GroupedTypeDeclarationOrConstraints) ;;
          .next ;;
          .set v_type_declarations .nilVec ;;
          .loop (
            .ite (.not (.up (.lit 0) [.sym_gt])) (
              .ite (.not (.up (.lit 1) [.sym_comma, .sym_gt, .TYPE, .sym_lt])) (
                .set v_type_declaration (.construct .TypeDeclaration) ;;
                .next) (
                .set v_type_declaration (.empty .TypeDeclaration)) ;;
              .push v_type_declaration .k_type (.call .parse_type [.var v_schema, .bool false]) ;;
              .next ;;
              .ite (.up (.lit 0) [.sym_comma]) (
                .push v_type_declaration .k_comma (.construct .Symbol) ;;
                .next) .skip ;;
              .append v_type_declarations (.var v_type_declaration)) (
              .brk)) ;;
          .push v_type_ .k_rparen (.construct .Symbol) ;;
          .pushVec v_type_ .k_declarations (.var v_type_declarations) ;;
          .push v_res .k_type_declaration (.var v_type_)) .skip) (
        .ite (.up (.lit 0) [.ANY]) (
          .set v_res (.construct .Type) ;;
          .next ;;
          .push v_res .k_type (.construct .Keyword)) (
          .set v_res (.construct .Type) ;;
          .ite (.up (.lit 1) [.sym_lparen]) (
            .next ;;
            .push v_res .k_parameter (.call .parse_grouped_exprs [.bool false])) .skip))) ;;
    .ite (.up (.lit 1) [.COLLATE]) (
      .next ;;
      .set v_collate (.construct .KeywordWithExpr) ;;
      .next ;;
      .push v_collate .k_expr (.construct .StringLiteral) ;;
      .push v_res .k_collate (.var v_collate)) .skip ;;
    .ite (.up (.lit 1) [.CONSTRAINT]) (
      .next ;;
      .set v_constraint (.construct .KeywordWithExpr) ;;
      .next ;;
      .push v_constraint .k_expr (.call .parse_identifier []) ;;
      .push v_res .k_constraint (.var v_constraint)) .skip ;;
    .ite (.up (.lit 1) [.PRIMARY]) (
      .next ;;
      .set v_primary (.construct .KeywordSequence) ;;
      .next ;;
      .set v_key (.construct .Keyword) ;;
      .push v_primary .k_next_keyword (.var v_key) ;;
      .push v_res .k_primarykey (.var v_primary) ;;
      .ite (.up (.lit 1) [.NOT, .ENFORCED]) (
        .next ;;
        .push v_res .k_enforced (.call .parse_enforced [])) .skip) .skip ;;
    .ite (.up (.lit 1) [.REFERENCES]) (
      .next ;;
      .set v_references (.construct .KeywordWithExpr) ;;
      .next ;;
      .set v_col (.call .parse_expr [.nat usizeMax, .bool false, .bool true, .bool false, .bool true]) ;;
      .push v_references .k_expr (.var v_col) ;;
      .push v_res .k_references (.var v_references) ;;
      .ite (.up (.lit 1) [.NOT, .ENFORCED]) (
        .next ;;
        .push v_res .k_enforced (.call .parse_enforced [])) .skip) .skip ;;
    .ite (.bvar v_schema) (
      .ite (.up (.lit 1) [.DEFAULT]) (
        .next ;;
        .set v_default (.construct .KeywordWithExpr) ;;
        .next ;;
        .push v_default .k_expr (.call .parse_expr [.nat usizeMax, .bool false, .bool false, .bool false, .bool true]) ;;
        .push v_res .k_default (.var v_default)) .skip ;;
      .ite (.up (.lit 1) [.NOT]) (
        .next ;;
        .set v_not_ (.construct .Keyword) ;;
        .next ;;
        .set v_null (.construct .Keyword) ;;
        .set v_vec_tmp .nilVec ;;
        .append v_vec_tmp (.var v_not_) ;;
        .append v_vec_tmp (.var v_null) ;;
        .set v_vec_tmp (.var v_vec_tmp) ;;
        .pushVec v_res .k_not_null (.var v_vec_tmp)) .skip ;;
      .ite (.up (.lit 1) [.OPTIONS]) (
        .next ;;
        .set v_options (.call .parse_keyword_with_grouped_exprs [.bool false]) ;;
        .push v_res .k_options (.var v_options)) .skip) .skip ;;
    .ite (.bvar v_aggregate) (
      .ite (.up (.lit 1) [.NOT]) (
        .next ;;
        .set v_not_ (.construct .KeywordSequence) ;;
        .next ;;
        .set v_null (.construct .Keyword) ;;
        .push v_not_ .k_next_keyword (.var v_null) ;;
        .push v_res .k_aggregate (.var v_not_)) .skip) .skip ;;
    .ret (.var v_res)

/-- src/parser.rs lines 1558-1643: `fn parse_window_expr`. -/
def parse_window_expr : FunDef where
  params := []
  body :=
    .ite (.up (.lit 0) [.sym_lparen]) (
      .set v_window (.construct .WindowSpecification) ;;
      .ite (.isIdent (.lit 1)) (
        .next ;;
        .push v_window .k_name (.construct .Identifier)) .skip ;;
      .ite (.up (.lit 1) [.PARTITION]) (
        .next ;;
        .set v_partition (.construct .XXXByExprs) ;;
        .next ;;
        .push v_partition .k_by (.construct .Keyword) ;;
        .next ;;
        .pushVec v_partition .k_exprs (.call .parse_exprs [.kws [], .bool false, .bool true]) ;;
        .push v_window .k_partitionby (.var v_partition)) .skip ;;
      .ite (.up (.lit 1) [.ORDER]) (
        .next ;;
        .set v_order (.construct .XXXByExprs) ;;
        .next ;;
        .push v_order .k_by (.construct .Keyword) ;;
        .next ;;
        .pushVec v_order .k_exprs (.call .parse_exprs [.kws [], .bool false, .bool true]) ;;
        .push v_window .k_orderby (.var v_order)) .skip ;;
      .ite (.up (.lit 1) [.RANGE, .ROWS]) (
        .next ;;
        .set v_frame (.construct .WindowFrameClause) ;;
        .ite (.up (.lit 1) [.BETWEEN]) (
          .next ;;
          .push v_frame .k_between (.construct .Keyword) ;;
          .next ;;
          .set v_frame_start .nilVec ;;
          .ite (.up (.lit 0) [.UNBOUNDED, .CURRENT]) (
            .append v_frame_start (.construct .Keyword)) (
            .append v_frame_start (.call .parse_expr [.nat usizeMax, .bool false, .bool false, .bool false, .bool true])) ;;
          .next ;;
          .append v_frame_start (.construct .Keyword) ;;
          .pushVec v_frame .k_start (.var v_frame_start) ;;
          .next ;;
          .push v_frame .k_and (.construct .Keyword) ;;
          .next ;;
          .set v_frame_end .nilVec ;;
          .ite (.up (.lit 0) [.UNBOUNDED, .CURRENT]) (
            .append v_frame_end (.construct .Keyword)) (
            .append v_frame_end (.call .parse_expr [.nat usizeMax, .bool false, .bool false, .bool false, .bool true])) ;;
          .next ;;
          .append v_frame_end (.construct .Keyword) ;;
          .pushVec v_frame .k_end (.var v_frame_end)) (
          .ite (.not (.up (.lit 1) [.sym_rparen])) (
            .next ;;
            .set v_frame_start .nilVec ;;
            .ite (.up (.lit 0) [.UNBOUNDED, .CURRENT]) (
              .append v_frame_start (.construct .Keyword)) (
              .append v_frame_start (.call .parse_expr [.nat usizeMax, .bool false, .bool false, .bool false, .bool true])) ;;
            .next ;;
            .append v_frame_start (.construct .Keyword) ;;
            .pushVec v_frame .k_start (.var v_frame_start)) .skip) ;;
        .push v_window .k_frame (.var v_frame)) .skip ;;
      .next ;;
      .push v_window .k_rparen (.construct .Symbol) ;;
      .ret (.var v_window)) (
      .ret (.construct .Identifier))

/-- src/parser.rs lines 1644-1656: `fn parse_with_connection_clause`. -/
def parse_with_connection_clause : FunDef where
  params := []
  body :=
    .set v_with (.construct .KeywordSequence) ;;
    .next ;;
    .set v_connection (.construct .KeywordWithExpr) ;;
    .next ;;
    .ite (.up (.lit 0) [.DEFAULT]) (
      .push v_connection .k_expr (.construct .Keyword)) (
      .push v_connection .k_expr (.call .parse_identifier [])) ;;
    .push v_with .k_next_keyword (.var v_connection) ;;
    .ret (.var v_with)

/-- src/parser.rs lines 1657-1674: `fn parse_with_clause`. -/
def parse_with_clause : FunDef where
  params := []
  body :=
    .set v_with (.construct .WithClause) ;;
    .ite (.up (.lit 1) [.RECURSIVE]) (
      .next ;;
      .push v_with .k_recursive (.construct .Keyword)) .skip ;;
    .set v_queries .nilVec ;;
    .loop (
      .ite (.and (.and (.and (.not (.up (.lit 1) [.SELECT])) (.not (.raw (.lit 1) [.sym_lparen]))) (.not (.raw (.lit 1) [.sym_pipe]))) (.not (.up (.lit 1) [.FROM]))) (
        .next ;;
        .append v_queries (.call .parse_cte [])) (
        .brk)) ;;
    .pushVec v_with .k_queries (.var v_queries) ;;
    .ret (.var v_with)

/-- src/parser.rs lines 1675-1693: `fn parse_window_clause`. -/
def parse_window_clause : FunDef where
  params := []
  body :=
    .set v_window (.construct .WindowClause) ;;
    .set v_window_exprs .nilVec ;;
    .loop (
      .ite (.isIdent (.lit 1)) (
        .next ;;
        .set v_window_expr (.construct .WindowExpr) ;;
        .next ;;
        .push v_window_expr .k_as (.construct .Keyword) ;;
        .next ;;
        .push v_window_expr .k_window (.call .parse_window_expr []) ;;
        .ite (.up (.lit 1) [.sym_comma]) (
          .next ;;
          .push v_window_expr .k_comma (.construct .Symbol)) .skip ;;
        .append v_window_exprs (.var v_window_expr)) (
        .brk)) ;;
    .pushVec v_window .k_window_exprs (.var v_window_exprs) ;;
    .ret (.var v_window)

/-- src/parser.rs lines 1694-1701: `fn parse_xxxby_exprs`. -/
def parse_xxxby_exprs : FunDef where
  params := []
  body :=
    .set v_xxxby (.construct .XXXByExprs) ;;
    .next ;;
    .push v_xxxby .k_by (.construct .Keyword) ;;
    .next ;;
    .pushVec v_xxxby .k_exprs (.call .parse_exprs [.kws [], .bool false, .bool true]) ;;
    .ret (.var v_xxxby)

/-- src/parser.rs lines 1702-1721: `fn parse_groupby_exprs`. -/
def parse_groupby_exprs : FunDef where
  params := [v_alias]
  body :=
    .set v_groupby (.construct .GroupByExprs) ;;
    .next ;;
    .push v_groupby .k_by (.construct .Keyword) ;;
    .next ;;
    .ite (.up (.lit 0) [.ROLLUP, .CUBE]) (
      .pushVec v_groupby .k_how (.call .parse_n_keywords [.nat 1]) ;;
      .next ;;
      .pushVec v_groupby .k_exprs (.call .parse_exprs [.kws [], .var v_alias, .bool true])) (
      .ite (.up (.lit 0) [.GROUPING]) (
        .pushVec v_groupby .k_how (.call .parse_n_keywords [.nat 2]) ;;
        .next ;;
        .pushVec v_groupby .k_exprs (.call .parse_exprs [.kws [], .var v_alias, .bool true])) (
        .ite (.up (.lit 0) [.ALL]) (
          .pushVec v_groupby .k_how (.call .parse_n_keywords [.nat 1])) (
          .pushVec v_groupby .k_exprs (.call .parse_exprs [.kws [], .var v_alias, .bool true])))) ;;
    .ret (.var v_groupby)

/-- src/parser.rs lines 1722-1734: `fn parse_table_sample_ratio`. -/
def parse_table_sample_ratio : FunDef where
  params := []
  body :=
    .set v_group (.construct .TableSampleRatio) ;;
    .next ;;
    .push v_group .k_expr (.call .parse_expr [.nat usizeMax, .bool false, .bool false, .bool false, .bool true]) ;;
    .next ;;
    .push v_group .k_percent (.construct .Keyword) ;;
    .next ;;
    .push v_group .k_rparen (.construct .Symbol) ;;
    .ret (.var v_group)

/-- src/parser.rs lines 1735-1749: `fn parse_pivot_config_clause`. -/
def parse_pivot_config_clause : FunDef where
  params := []
  body :=
    .set v_config (.construct .PivotConfig) ;;
    .next ;;
    .pushVec v_config .k_exprs (.call .parse_exprs [.kws [], .bool true, .bool true]) ;;
    .next ;;
    .set v_for_ (.construct .KeywordWithExpr) ;;
    .next ;;
    .push v_for_ .k_expr (.construct .Identifier) ;;
    .push v_config .k_for (.var v_for_) ;;
    .next ;;
    .push v_config .k_in (.call .parse_keyword_with_grouped_exprs [.bool true]) ;;
    .next ;;
    .push v_config .k_rparen (.construct .Symbol) ;;
    .ret (.var v_config)

/-- src/parser.rs lines 1750-1809: `fn parse_unpivot_config_clause`. -/
def parse_unpivot_config_clause : FunDef where
  params := []
  body :=
    .set v_config (.construct .UnpivotConfig) ;;
    .next ;;
    .ite (.up (.lit 0) [.sym_lparen]) (
      .push v_config .k_expr (.call .parse_grouped_exprs [.bool false])) (
      .push v_config .k_expr (.call .parse_expr [.nat usizeMax, .bool true, .bool false, .bool false, .bool true])) ;;
    .next ;;
    .set v_for_ (.construct .KeywordWithExpr) ;;
    .next ;;
    .push v_for_ .k_expr (.construct .Identifier) ;;
    .push v_config .k_for (.var v_for_) ;;
    .next ;;
    .set v_in_ (.construct .KeywordWithGroupedXXX) ;;
    .next ;;
    .set v_group (.construct .GroupedExprs) ;;
    .set v_exprs .nilVec ;;
    .loop (
      .ite (.not (.up (.lit 1) [.sym_rparen])) (
        .next ;;
        .ite (.up (.lit 0) [.sym_lparen]) (
          .set v_expr (.call .parse_grouped_exprs [.bool false])) (
          .set v_expr (.call .parse_expr [.nat usizeMax, .bool false, .bool false, .bool false, .bool true])) ;;
        .ite (.up (.lit 1) [.AS]) (
          .next ;;
          .push v_expr .k_as (.construct .Keyword)) .skip ;;
        .ite (.or (.isStr (.lit 1)) (.isNum (.lit 1))) (
          .next ;;
          .push v_expr .k_row_value_alias (.call .parse_expr [.nat usizeMax, .bool false, .bool false, .bool false, .bool true])) .skip ;;
        .ite (.up (.lit 1) [.sym_comma]) (
          .next ;;
          .push v_expr .k_comma (.construct .Symbol)) (
          .append v_exprs (.var v_expr) ;;
          .brk) ;;
        .append v_exprs (.var v_expr)) (
        .brk)) ;;
    .next ;;
    .push v_group .k_rparen (.construct .Symbol) ;;
    .pushVec v_group .k_exprs (.var v_exprs) ;;
    .push v_in_ .k_group (.var v_group) ;;
    .push v_config .k_in (.var v_in_) ;;
    .next ;;
    .push v_config .k_rparen (.construct .Symbol) ;;
    .ret (.var v_config)

/-- src/parser.rs lines 1810-1816: `fn parse_match_recognize_clause`. -/
def parse_match_recognize_clause : FunDef where
  params := []
  body :=
    .set v_match_recognize (.construct .MatchRecognizeClause) ;;
    .next ;;
    .push v_match_recognize .k_config (.call .parse_match_recognize_config []) ;;
    .set v_match_recognize (.call .push_trailing_alias [.var v_match_recognize]) ;;
    .ret (.var v_match_recognize)

/-- src/parser.rs lines 1817-1880: `fn parse_match_recognize_config`. -/
def parse_match_recognize_config : FunDef where
  params := []
  body :=
    .set v_config (.construct .MatchRecognizeConfig) ;;
    .ite (.up (.lit 1) [.PARTITION]) (
      .next ;;
      .push v_config .k_partitionby (.call .parse_xxxby_exprs [])) .skip ;;
    .ite (.up (.lit 1) [.ORDER]) (
      .next ;;
      .push v_config .k_orderby (.call .parse_xxxby_exprs [])) .skip ;;
    .ite (.up (.lit 1) [.MEASURES]) (
      .next ;;
      .set v_measures (.construct .KeywordWithExprs) ;;
      .next ;;
      .pushVec v_measures .k_exprs (.call .parse_exprs [.kws [], .bool true, .bool false]) ;;
      .push v_config .k_measures (.var v_measures)) .skip ;;
    .ite (.up (.lit 1) [.AFTER]) (
      .next ;;
      .set v_after (.construct .KeywordSequence) ;;
      .next ;;
      .set v_match_ (.construct .KeywordSequence) ;;
      .next ;;
      .set v_skip (.construct .KeywordSequence) ;;
      .next ;;
      .set v_past_to (.construct .KeywordSequence) ;;
      .next ;;
      .set v_last_next (.construct .KeywordSequence) ;;
      .next ;;
      .set v_row (.construct .KeywordSequence) ;;
      .push v_last_next .k_next_keyword (.var v_row) ;;
      .push v_past_to .k_next_keyword (.var v_last_next) ;;
      .push v_skip .k_next_keyword (.var v_past_to) ;;
      .push v_match_ .k_next_keyword (.var v_skip) ;;
      .push v_after .k_next_keyword (.var v_match_) ;;
      .push v_config .k_skip_rule (.var v_after)) .skip ;;
    .ite (.up (.lit 1) [.PATTERN]) (
      .next ;;
      .set v_pattern (.call .parse_pattern_clause []) ;;
      .push v_config .k_pattern (.var v_pattern)) .skip ;;
    .ite (.up (.lit 1) [.DEFINE]) (
      .next ;;
      .set v_define (.construct .KeywordWithExprs) ;;
      .next ;;
      .pushVec v_define .k_exprs (.call .parse_exprs [.kws [], .bool true, .bool false]) ;;
      .push v_config .k_define (.var v_define)) .skip ;;
    .ite (.up (.lit 1) [.OPTIONS]) (
      .next ;;
      .push v_config .k_options (.call .parse_keyword_with_grouped_exprs [.bool false])) .skip ;;
    .next ;;
    .push v_config .k_rparen (.construct .Symbol) ;;
    .ret (.var v_config)

/-- src/parser.rs lines 1881-1899: `fn parse_by_name_clause`. -/
def parse_by_name_clause : FunDef where
  params := []
  body :=
    .set v_by (.construct .KeywordSequence) ;;
    .next ;;
    .ite (.up (.lit 1) [.ON]) (
      .set v_name (.construct .KeywordSequence) ;;
      .next ;;
      .set v_on (.construct .KeywordWithGroupedXXX) ;;
      .next ;;
      .set v_columns (.call .parse_grouped_exprs [.bool false]) ;;
      .push v_on .k_group (.var v_columns) ;;
      .push v_name .k_next_keyword (.var v_on)) (
      .set v_name (.construct .Keyword)) ;;
    .push v_by .k_next_keyword (.var v_name) ;;
    .ret (.var v_by)

/-- src/parser.rs lines 1900-1905: `fn parse_pattern_clause`. -/
def parse_pattern_clause : FunDef where
  params := []
  body :=
    .set v_pattern (.construct .PatternClause) ;;
    .next ;;
    .push v_pattern .k_pattern (.call .parse_pattern []) ;;
    .ret (.var v_pattern)

/-- src/parser.rs lines 1906-1929: `fn parse_grouped_pattern`. -/
def parse_grouped_pattern : FunDef where
  params := []
  body :=
    .set v_group (.construct .GroupedPattern) ;;
    .set v_patterns .nilVec ;;
    .loop (
      .ite (.not (.up (.lit 1) [.sym_rparen])) (
        .next ;;
        .ite (.up (.lit 0) [.sym_bar]) (
          .set v_or (.construct .OrPattern) ;;
          .pushVec v_or .k_left (.var v_patterns) ;;
          .set v_right_patterns .nilVec ;;
          .loop (
            .ite (.not (.up (.lit 1) [.sym_bar, .sym_rparen])) (
              .next ;;
              .append v_right_patterns (.call .parse_pattern [])) (
              .brk)) ;;
          .pushVec v_or .k_right (.var v_right_patterns) ;;
          .set v_vec_tmp .nilVec ;;
          .append v_vec_tmp (.var v_or) ;;
          .set v_patterns (.var v_vec_tmp)) (
          .append v_patterns (.call .parse_pattern []))) (
        .brk)) ;;
    .pushVec v_group .k_patterns (.var v_patterns) ;;
    .next ;;
    .push v_group .k_rparen (.construct .Symbol) ;;
    .ret (.var v_group)

/-- src/parser.rs lines 1930-1957: `fn parse_pattern`. -/
def parse_pattern : FunDef where
  params := []
  body :=
    .ite (.up (.lit 0) [.sym_lparen]) (
      .set v_pattern (.call .parse_grouped_pattern [])) (
      .set v_pattern (.construct .Pattern)) ;;
    .set v_suffixes .nilVec ;;
    .loop (
      .ite (.raw (.lit 1) [.sym_quest, .sym_plus, .sym_star]) (
        .next ;;
        .append v_suffixes (.construct .Symbol)) (
        .ite (.raw (.lit 1) [.sym_lbrace]) (
          .next ;;
          .append v_suffixes (.call .parse_quantifier [])) (
          .brk))) ;;
    .pushVec v_pattern .k_suffixes (.var v_suffixes) ;;
    .ret (.var v_pattern)

/-- src/parser.rs lines 1958-1973: `fn parse_quantifier`. -/
def parse_quantifier : FunDef where
  params := []
  body :=
    .set v_quantifier (.construct .PatternQuantifier) ;;
    .ite (.not (.up (.lit 1) [.sym_comma])) (
      .next ;;
      .push v_quantifier .k_min (.construct .NumericLiteral)) .skip ;;
    .ite (.up (.lit 1) [.sym_comma]) (
      .next ;;
      .push v_quantifier .k_comma (.construct .Symbol) ;;
      .next ;;
      .push v_quantifier .k_max (.construct .NumericLiteral)) .skip ;;
    .next ;;
    .push v_quantifier .k_rbrace (.construct .Symbol) ;;
    .ret (.var v_quantifier)

/-- src/parser.rs lines 1974-1996: `fn parse_corresponding_clause`. -/
def parse_corresponding_clause : FunDef where
  params := []
  body :=
    .set v_strict_exists (.boolLit false) ;;
    .set v_strict (.empty .Unknown) ;;
    .ite (.up (.lit 0) [.STRICT]) (
      .set v_strict_exists (.boolLit true) ;;
      .set v_strict (.construct .KeywordSequence) ;;
      .next) .skip ;;
    .set v_corresponding (.construct .Keyword) ;;
    .ite (.up (.lit 1) [.BY]) (
      .setType v_corresponding .KeywordSequence ;;
      .next ;;
      .set v_by (.construct .KeywordWithGroupedXXX) ;;
      .next ;;
      .push v_by .k_group (.call .parse_grouped_exprs [.bool false]) ;;
      .push v_corresponding .k_next_keyword (.var v_by)) .skip ;;
    .ite (.bvar v_strict_exists) (
      .push v_strict .k_next_keyword (.var v_corresponding) ;;
      .set v_corresponding (.var v_strict)) .skip ;;
    .ret (.var v_corresponding)

/-- src/parser.rs lines 1997-2008: `fn push_trailing_alias`. -/
def push_trailing_alias : FunDef where
  params := [v_node]
  body :=
    .ite (.up (.lit 1) [.AS]) (
      .next ;;
      .push v_node .k_as (.construct .Keyword) ;;
      .next ;;
      .push v_node .k_alias (.construct .Identifier)) (
      .ite (.isIdent (.lit 1)) (
        .next ;;
        .push v_node .k_alias (.construct .Identifier)) .skip) ;;
    .ret (.var v_node)

/-- src/parser.rs lines 2010-2247: `fn parse_select_statement`. -/
def parse_select_statement : FunDef where
  params := [v_semicolon, v_root]
  body :=
    .ite (.up (.lit 0) [.sym_lparen]) (
      .set v_node (.construct .GroupedStatement) ;;
      .next ;;
      .ite (.up (.lit 0) [.FROM]) (
        .push v_node .k_stmt (.call .parse_from_statement [])) (
        .push v_node .k_stmt (.call .parse_select_statement [.bool false, .bool true])) ;;
      .next ;;
      .ite (.not (.up (.lit 0) [.sym_rparen])) (
        .fail (.lit 0) 2021) .skip ;;
      .push v_node .k_rparen (.construct .Symbol) ;;
      .loop (
        .ite (.and (.up (.lit 1) [.UNION, .INTERSECT, .EXCEPT, .INNER, .FULL, .LEFT, .OUTER]) (.bvar v_root)) (
          .next ;;
          .set v_node (.call .parse_set_operator [.var v_node])) (
          .brk)) ;;
      .ite (.and (.up (.lit 1) [.ORDER]) (.bvar v_root)) (
        .next ;;
        .push v_node .k_orderby (.call .parse_xxxby_exprs [])) .skip ;;
      .ite (.and (.up (.lit 1) [.LIMIT]) (.bvar v_root)) (
        .next ;;
        .set v_limit (.construct .LimitClause) ;;
        .next ;;
        .push v_limit .k_expr (.call .parse_expr [.nat usizeMax, .bool false, .bool false, .bool false, .bool true]) ;;
        .ite (.up (.lit 1) [.OFFSET]) (
          .next ;;
          .set v_offset (.construct .KeywordWithExpr) ;;
          .next ;;
          .push v_offset .k_expr (.call .parse_expr [.nat usizeMax, .bool false, .bool false, .bool false, .bool true]) ;;
          .push v_limit .k_offset (.var v_offset)) .skip ;;
        .push v_node .k_limit (.var v_limit)) .skip ;;
      .ite (.and (.and (.up (.lit 1) [.sym_semi]) (.bvar v_semicolon)) (.bvar v_root)) (
        .next ;;
        .push v_node .k_semicolon (.construct .Symbol)) (
        .ite (.up (.lit 1) [.sym_pipe]) (
          .next ;;
          .ret (.call .parse_pipe_statement [.var v_node])) .skip) ;;
      .ret (.var v_node)) .skip ;;
    .ite (.up (.lit 0) [.WITH]) (
      .set v_with (.call .parse_with_clause []) ;;
      .next ;;
      .ite (.up (.lit 0) [.FROM]) (
        .set v_node (.call .parse_from_statement [])) (
        .set v_node (.call .parse_select_statement [.var v_semicolon, .bool true])) ;;
      .push v_node .k_with (.var v_with) ;;
      .ret (.var v_node)) .skip ;;
    .set v_node (.construct .SelectStatement) ;;
    .ite (.and (.up (.lit 1) [.WITH]) (.not (.up (.lit 2) [.sym_lparen]))) (
      .next ;;
      .set v_with (.construct .DifferentialPrivacyClause) ;;
      .next ;;
      .push v_with .k_differential_privacy (.construct .Keyword) ;;
      .ite (.up (.lit 1) [.OPTIONS]) (
        .next ;;
        .push v_with .k_options (.call .parse_keyword_with_grouped_exprs [.bool false])) .skip ;;
      .push v_node .k_differential_privacy (.var v_with)) .skip ;;
    .ite (.up (.lit 1) [.ALL, .DISTINCT]) (
      .next ;;
      .push v_node .k_distinct_or_all (.construct .Keyword)) .skip ;;
    .ite (.up (.lit 1) [.AS]) (
      .next ;;
      .set v_as_ (.construct .Keyword) ;;
      .next ;;
      .set v_vec_tmp .nilVec ;;
      .append v_vec_tmp (.var v_as_) ;;
      .append v_vec_tmp (.construct .Keyword) ;;
      .set v_vec_tmp (.var v_vec_tmp) ;;
      .pushVec v_node .k_as_struct_or_value (.var v_vec_tmp)) .skip ;;
    .next ;;
    .pushVec v_node .k_exprs (.call .parse_exprs [.kws [.FROM, .WHERE, .GROUP, .HAVING, .QUALIFY, .WINDOW, .ORDER, .LIMIT, .UNION, .INTERSECT, .EXCEPT, .sym_semi, .sym_rparen], .bool true, .bool true]) ;;
    .ite (.up (.lit 1) [.FROM]) (
      .next ;;
      .set v_from (.construct .KeywordWithExpr) ;;
      .next ;;
      .push v_from .k_expr (.call .parse_table [.bool true]) ;;
      .push v_node .k_from (.var v_from)) .skip ;;
    .ite (.up (.lit 1) [.WHERE]) (
      .next ;;
      .set v_where_ (.construct .KeywordWithExpr) ;;
      .next ;;
      .push v_where_ .k_expr (.call .parse_expr [.nat usizeMax, .bool false, .bool false, .bool false, .bool true]) ;;
      .push v_node .k_where (.var v_where_)) .skip ;;
    .ite (.up (.lit 1) [.GROUP]) (
      .next ;;
      .push v_node .k_groupby (.call .parse_groupby_exprs [.bool false])) .skip ;;
    .ite (.up (.lit 1) [.HAVING]) (
      .next ;;
      .set v_having (.construct .KeywordWithExpr) ;;
      .next ;;
      .push v_having .k_expr (.call .parse_expr [.nat usizeMax, .bool false, .bool false, .bool false, .bool true]) ;;
      .push v_node .k_having (.var v_having)) .skip ;;
    .ite (.up (.lit 1) [.QUALIFY]) (
      .next ;;
      .set v_qualify (.construct .KeywordWithExpr) ;;
      .next ;;
      .push v_qualify .k_expr (.call .parse_expr [.nat usizeMax, .bool false, .bool false, .bool false, .bool true]) ;;
      .push v_node .k_qualify (.var v_qualify)) .skip ;;
    .ite (.up (.lit 1) [.WINDOW]) (
      .next ;;
      .push v_node .k_window (.call .parse_window_clause [])) .skip ;;
    .ite (.up (.lit 1) [.ORDER]) (
      .next ;;
      .push v_node .k_orderby (.call .parse_xxxby_exprs [])) .skip ;;
    .ite (.up (.lit 1) [.LIMIT]) (
      .next ;;
      .set v_limit (.construct .LimitClause) ;;
      .next ;;
      .push v_limit .k_expr (.call .parse_expr [.nat usizeMax, .bool false, .bool false, .bool false, .bool true]) ;;
      .ite (.up (.lit 1) [.OFFSET]) (
        .next ;;
        .set v_offset (.construct .KeywordWithExpr) ;;
        .next ;;
        .push v_offset .k_expr (.call .parse_expr [.nat usizeMax, .bool false, .bool false, .bool false, .bool true]) ;;
        .push v_limit .k_offset (.var v_offset)) .skip ;;
      .push v_node .k_limit (.var v_limit)) .skip ;;
    .loop (
      .ite (.and (.up (.lit 1) [.UNION, .INTERSECT, .EXCEPT, .INNER, .FULL, .LEFT, .OUTER]) (.bvar v_root)) (
        .next ;;
        .set v_node (.call .parse_set_operator [.var v_node])) (
        .brk)) ;;
    .ite (.and (.up (.lit 1) [.sym_semi]) (.bvar v_semicolon)) (
      .next ;;
      .push v_node .k_semicolon (.construct .Symbol)) (
      .ite (.and (.up (.lit 1) [.sym_pipe]) (.bvar v_root)) (
        .next ;;
        .ret (.call .parse_pipe_statement [.var v_node])) .skip) ;;
    .ret (.var v_node)

/-- src/parser.rs lines 2248-2263: `fn parse_from_statement`. -/
def parse_from_statement : FunDef where
  params := []
  body :=
    .set v_from (.construct .FromStatement) ;;
    .next ;;
    .push v_from .k_expr (.call .parse_table [.bool true]) ;;
    .ite (.up (.lit 1) [.sym_pipe]) (
      .next ;;
      .ret (.call .parse_pipe_statement [.var v_from])) .skip ;;
    .ite (.up (.lit 1) [.sym_semi]) (
      .next ;;
      .push v_from .k_semicolon (.construct .Symbol)) .skip ;;
    .ret (.var v_from)

/-- src/parser.rs lines 2264-2312: `fn parse_pipe_statement`. -/
def parse_pipe_statement : FunDef where
  params := [v_left]
  body :=
    .set v_pipe (.construct .PipeStatement) ;;
    .push v_pipe .k_left (.var v_left) ;;
    .next ;;
    .ite (.up (.lit 0) [.EXTEND, .SET, .DROP, .RENAME, .AS, .WHERE, .CALL]) (
      .set v_operator (.call .parse_base_pipe_operator [.bool false])) (
      .ite (.up (.lit 0) [.ORDER]) (
        .set v_operator (.call .parse_base_pipe_operator [.bool true])) (
        .ite (.up (.lit 0) [.SELECT]) (
          .set v_operator (.call .parse_select_pipe_operator [])) (
          .ite (.up (.lit 0) [.LIMIT]) (
            .set v_operator (.call .parse_limit_pipe_operator [])) (
            .ite (.up (.lit 0) [.AGGREGATE]) (
              .set v_operator (.call .parse_aggregate_pipe_operator [])) (
              .ite (.up (.lit 0) [.UNION, .INTERSECT, .EXCEPT]) (
                .set v_operator (.call .parse_union_pipe_operator [])) (
                .ite (.up (.lit 0) [.JOIN]) (
                  .set v_operator (.call .parse_join_pipe_operator [])) (
                  .ite (.up (.lit 0) [.INNER, .FULL, .LEFT, .RIGHT, .CROSS, .OUTER]) (
                    .ite (.or (.up (.lit 1) [.JOIN]) (.up (.lit 2) [.JOIN])) (
                      .set v_operator (.call .parse_join_pipe_operator [])) (
                      .set v_operator (.call .parse_union_pipe_operator []))) (
                    .ite (.up (.lit 0) [.TABLESAMPLE]) (
                      .set v_operator (.call .parse_tablesample_pipe_operator [])) (
                      .ite (.up (.lit 0) [.PIVOT]) (
                        .set v_operator (.call .parse_pivot_pipe_operator [])) (
                        .ite (.up (.lit 0) [.UNPIVOT]) (
                          .set v_operator (.call .parse_unpivot_pipe_operator [])) (
                          .ite (.up (.lit 0) [.WITH]) (
                            .set v_operator (.call .parse_with_pipe_operator [])) (
                            .ite (.up (.lit 0) [.MATCH_RECOGNIZE]) (
                              .set v_operator (.call .parse_match_recognize_pipe_operator [])) (
                              .ite (.up (.lit 0) [.DISTINCT]) (
                                .set v_operator (.construct .Keyword)) (
                                .fail (.lit 0) 2294)))))))))))))) ;;
    .push v_pipe .k_right (.var v_operator) ;;
    .ite (.up (.lit 1) [.sym_pipe]) (
      .next ;;
      .ret (.call .parse_pipe_statement [.var v_pipe])) .skip ;;
    .ite (.up (.lit 1) [.sym_semi]) (
      .next ;;
      .push v_pipe .k_semicolon (.construct .Symbol)) .skip ;;
    .ret (.var v_pipe)

/-- src/parser.rs lines 2313-2347: `fn parse_select_pipe_operator`. -/
def parse_select_pipe_operator : FunDef where
  params := []
  body :=
    .set v_operator (.construct .SelectPipeOperator) ;;
    .set v_keywords .nilVec ;;
    .ite (.up (.lit 1) [.ALL, .DISTINCT]) (
      .next ;;
      .append v_keywords (.construct .Keyword)) .skip ;;
    .ite (.up (.lit 1) [.AS]) (
      .next ;;
      .append v_keywords (.construct .Keyword) ;;
      .next ;;
      .append v_keywords (.construct .Keyword)) .skip ;;
    .ite (.lenPos v_keywords) (
      .set v_temp (.pop v_keywords) ;;
      .drain v_keywords v_kw (
        .setType v_kw .KeywordSequence ;;
        .push v_kw .k_next_keyword (.var v_temp) ;;
        .set v_temp (.var v_kw)) ;;
      .push v_operator .k_keywords (.var v_temp)) .skip ;;
    .next ;;
    .set v_exprs (.call .parse_exprs [.kws [.sym_semi, .WINDOW], .bool true, .bool true]) ;;
    .pushVec v_operator .k_exprs (.var v_exprs) ;;
    .ite (.up (.lit 1) [.WINDOW]) (
      .next ;;
      .set v_window (.call .parse_window_clause []) ;;
      .push v_operator .k_window (.var v_window)) .skip ;;
    .ret (.var v_operator)

/-- src/parser.rs lines 2348-2364: `fn parse_limit_pipe_operator`. -/
def parse_limit_pipe_operator : FunDef where
  params := []
  body :=
    .set v_operator (.construct .LimitPipeOperator) ;;
    .next ;;
    .set v_exprs (.call .parse_exprs [.kws [.sym_semi, .OFFSET], .bool false, .bool true]) ;;
    .pushVec v_operator .k_exprs (.var v_exprs) ;;
    .ite (.up (.lit 1) [.OFFSET]) (
      .next ;;
      .set v_offset (.construct .KeywordWithExpr) ;;
      .next ;;
      .push v_offset .k_expr (.call .parse_expr [.nat usizeMax, .bool false, .bool false, .bool false, .bool true]) ;;
      .push v_operator .k_offset (.var v_offset)) .skip ;;
    .ret (.var v_operator)

/-- src/parser.rs lines 2365-2375: `fn parse_aggregate_pipe_operator`. -/
def parse_aggregate_pipe_operator : FunDef where
  params := []
  body :=
    .set v_operator (.construct .AggregatePipeOperator) ;;
    .next ;;
    .set v_exprs (.call .parse_exprs [.kws [.sym_semi, .GROUP], .bool true, .bool true]) ;;
    .pushVec v_operator .k_exprs (.var v_exprs) ;;
    .ite (.up (.lit 1) [.GROUP]) (
      .next ;;
      .push v_operator .k_groupby (.call .parse_groupby_exprs [.bool true])) .skip ;;
    .ret (.var v_operator)

/-- src/parser.rs lines 2377-2416: `fn parse_union_pipe_operator`. -/
def parse_union_pipe_operator : FunDef where
  params := []
  body :=
    .ite (.up (.lit 0) [.INNER, .FULL, .LEFT, .OUTER]) (
      .ite (.up (.lit 1) [.OUTER]) (
        .set v_method (.construct .KeywordSequence) ;;
        .next ;;
        .set v_outer (.construct .Keyword) ;;
        .push v_method .k_next_keyword (.var v_outer)) (
        .set v_method (.construct .Keyword)) ;;
      .next ;;
      .set v_operator (.construct .UnionPipeOperator) ;;
      .push v_operator .k_method (.var v_method)) (
      .set v_operator (.construct .UnionPipeOperator)) ;;
    .next ;;
    .push v_operator .k_keywords (.construct .Keyword) ;;
    .ite (.up (.lit 1) [.BY]) (
      .next ;;
      .push v_operator .k_by (.call .parse_by_name_clause [])) (
      .ite (.up (.lit 1) [.STRICT, .CORRESPONDING]) (
        .next ;;
        .push v_operator .k_corresponding (.call .parse_corresponding_clause [])) .skip) ;;
    .next ;;
    .set v_exprs (.call .parse_exprs [.kws [.sym_semi], .bool true, .bool true]) ;;
    .pushVec v_operator .k_exprs (.var v_exprs) ;;
    .ret (.var v_operator)

/-- src/parser.rs lines 2417-2460: `fn parse_join_pipe_operator`. -/
def parse_join_pipe_operator : FunDef where
  params := []
  body :=
    .ite (.up (.lit 0) [.INNER, .FULL, .LEFT, .RIGHT, .CROSS, .OUTER]) (
      .ite (.up (.lit 1) [.OUTER]) (
        .set v_method (.construct .KeywordSequence) ;;
        .next ;;
        .set v_outer (.construct .Keyword) ;;
        .push v_method .k_next_keyword (.var v_outer)) (
        .set v_method (.construct .Keyword)) ;;
      .next ;;
      .set v_operator (.construct .JoinPipeOperator) ;;
      .push v_operator .k_method (.var v_method)) (
      .set v_operator (.construct .JoinPipeOperator)) ;;
    .next ;;
    .set v_vec_tmp .nilVec ;;
    .append v_vec_tmp (.call .parse_table [.bool false]) ;;
    .set v_vec_tmp (.var v_vec_tmp) ;;
    .pushVec v_operator .k_exprs (.var v_vec_tmp) ;;
    .ite (.up (.lit 1) [.ON]) (
      .next ;;
      .set v_on (.construct .KeywordWithExpr) ;;
      .next ;;
      .push v_on .k_expr (.call .parse_expr [.nat usizeMax, .bool false, .bool false, .bool false, .bool true]) ;;
      .push v_operator .k_on (.var v_on)) (
      .ite (.up (.lit 1) [.USING]) (
        .next ;;
        .push v_operator .k_using (.call .parse_expr [.nat usizeMax, .bool false, .bool false, .bool false, .bool true])) .skip) ;;
    .ret (.var v_operator)

/-- src/parser.rs lines 2461-2469: `fn parse_tablesample_pipe_operator`. -/
def parse_tablesample_pipe_operator : FunDef where
  params := []
  body :=
    .set v_operator (.construct .TableSamplePipeOperator) ;;
    .next ;;
    .push v_operator .k_keywords (.construct .Keyword) ;;
    .next ;;
    .push v_operator .k_group (.call .parse_table_sample_ratio []) ;;
    .ret (.var v_operator)

/-- src/parser.rs lines 2470-2476: `fn parse_pivot_pipe_operator`. -/
def parse_pivot_pipe_operator : FunDef where
  params := []
  body :=
    .set v_operator (.construct .PivotPipeOperator) ;;
    .next ;;
    .push v_operator .k_config (.call .parse_pivot_config_clause []) ;;
    .set v_operator (.call .push_trailing_alias [.var v_operator]) ;;
    .ret (.var v_operator)

/-- src/parser.rs lines 2477-2490: `fn parse_unpivot_pipe_operator`. -/
def parse_unpivot_pipe_operator : FunDef where
  params := []
  body :=
    .set v_operator (.construct .UnpivotPipeOperator) ;;
    .ite (.up (.lit 1) [.INCLUDE, .EXCLUDE]) (
      .next ;;
      .set v_include_or_exclude (.construct .KeywordSequence) ;;
      .next ;;
      .push v_include_or_exclude .k_next_keyword (.construct .Keyword) ;;
      .push v_operator .k_keywords (.var v_include_or_exclude)) .skip ;;
    .next ;;
    .push v_operator .k_config (.call .parse_unpivot_config_clause []) ;;
    .set v_operator (.call .push_trailing_alias [.var v_operator]) ;;
    .ret (.var v_operator)

/-- src/parser.rs lines 2491-2495: `fn parse_with_pipe_operator`. -/
def parse_with_pipe_operator : FunDef where
  params := []
  body :=
    .set v_operator (.call .parse_with_clause []) ;;
    .setType v_operator .WithPipeOperator ;;
    .ret (.var v_operator)

/-- src/parser.rs lines 2496-2500: `fn parse_match_recognize_pipe_operator`. -/
def parse_match_recognize_pipe_operator : FunDef where
  params := []
  body :=
    .set v_operator (.call .parse_match_recognize_clause []) ;;
    .setType v_operator .MatchRecognizePipeOperator ;;
    .ret (.var v_operator)

/-- src/parser.rs lines 2501-2512: `fn parse_base_pipe_operator`. -/
def parse_base_pipe_operator : FunDef where
  params := [v_keywords]
  body :=
    .set v_operator (.construct .BasePipeOperator) ;;
    .ite (.bvar v_keywords) (
      .next ;;
      .push v_operator .k_keywords (.construct .Keyword)) .skip ;;
    .next ;;
    .set v_exprs (.call .parse_exprs [.kws [.sym_semi], .bool true, .bool true]) ;;
    .pushVec v_operator .k_exprs (.var v_exprs) ;;
    .ret (.var v_operator)

/-- src/parser.rs lines 2514-2556: `fn parse_insert_statement`. -/
def parse_insert_statement : FunDef where
  params := [v_semicolon]
  body :=
    .set v_insert (.construct .InsertStatement) ;;
    .ite (.up (.lit 1) [.INTO]) (
      .next ;;
      .push v_insert .k_into (.construct .Keyword)) .skip ;;
    .ite (.not (.up (.lit 1) [.sym_lparen, .VALUES, .ROW])) (
      .next ;;
      .push v_insert .k_target_name (.call .parse_identifier [])) .skip ;;
    .ite (.up (.lit 1) [.sym_lparen]) (
      .next ;;
      .push v_insert .k_columns (.call .parse_grouped_exprs [.bool false])) .skip ;;
    .ite (.up (.lit 1) [.VALUES]) (
      .next ;;
      .set v_values (.construct .KeywordWithExprs) ;;
      .set v_lparens .nilVec ;;
      .loop (
        .ite (.up (.lit 1) [.sym_lparen]) (
          .next ;;
          .set v_lparen (.call .parse_grouped_exprs [.bool false]) ;;
          .ite (.up (.lit 1) [.sym_comma]) (
            .next ;;
            .push v_lparen .k_comma (.construct .Symbol)) .skip ;;
          .append v_lparens (.var v_lparen)) (
          .brk)) ;;
      .pushVec v_values .k_exprs (.var v_lparens) ;;
      .push v_insert .k_input (.var v_values)) (
      .ite (.up (.lit 1) [.ROW]) (
        .next ;;
        .push v_insert .k_input (.construct .Keyword)) (
        .next ;;
        .push v_insert .k_input (.call .parse_select_statement [.bool false, .bool true]))) ;;
    .ite (.and (.up (.lit 1) [.sym_semi]) (.bvar v_semicolon)) (
      .next ;;
      .push v_insert .k_semicolon (.construct .Symbol)) .skip ;;
    .ret (.var v_insert)

/-- src/parser.rs lines 2557-2587: `fn parse_delete_statement`. -/
def parse_delete_statement : FunDef where
  params := [v_semicolon]
  body :=
    .set v_delete (.construct .DeleteStatement) ;;
    .ite (.up (.lit 1) [.FROM]) (
      .next ;;
      .push v_delete .k_from (.construct .Keyword)) .skip ;;
    .next ;;
    .set v_table_name (.call .parse_identifier []) ;;
    .ite (.not (.up (.lit 1) [.WHERE])) (
      .next ;;
      .ite (.up (.lit 0) [.AS]) (
        .push v_table_name .k_as (.construct .Keyword) ;;
        .next) .skip ;;
      .push v_table_name .k_alias (.construct .Identifier)) .skip ;;
    .push v_delete .k_table_name (.var v_table_name) ;;
    .next ;;
    .set v_where_ (.construct .KeywordWithExpr) ;;
    .next ;;
    .push v_where_ .k_expr (.call .parse_expr [.nat usizeMax, .bool false, .bool false, .bool false, .bool true]) ;;
    .push v_delete .k_where (.var v_where_) ;;
    .ite (.and (.up (.lit 1) [.sym_semi]) (.bvar v_semicolon)) (
      .next ;;
      .push v_delete .k_semicolon (.construct .Symbol)) .skip ;;
    .ret (.var v_delete)

/-- src/parser.rs lines 2588-2599: `fn parse_truncate_statement`. -/
def parse_truncate_statement : FunDef where
  params := [v_semicolon]
  body :=
    .set v_truncate (.construct .TruncateStatement) ;;
    .next ;;
    .push v_truncate .k_table (.construct .Keyword) ;;
    .next ;;
    .push v_truncate .k_table_name (.call .parse_identifier []) ;;
    .ite (.and (.up (.lit 1) [.sym_semi]) (.bvar v_semicolon)) (
      .next ;;
      .push v_truncate .k_semicolon (.construct .Symbol)) .skip ;;
    .ret (.var v_truncate)

/-- src/parser.rs lines 2600-2633: `fn parse_update_statement`. -/
def parse_update_statement : FunDef where
  params := [v_semicolon]
  body :=
    .set v_update (.construct .UpdateStatement) ;;
    .ite (.not (.up (.lit 1) [.SET])) (
      .next ;;
      .push v_update .k_table_name (.call .parse_table [.bool true])) .skip ;;
    .next ;;
    .set v_set (.construct .KeywordWithExprs) ;;
    .next ;;
    .pushVec v_set .k_exprs (.call .parse_exprs [.kws [], .bool false, .bool true]) ;;
    .ite (.up (.lit 1) [.FROM]) (
      .next ;;
      .set v_from (.construct .KeywordWithExpr) ;;
      .next ;;
      .push v_from .k_expr (.call .parse_table [.bool true]) ;;
      .push v_update .k_from (.var v_from)) .skip ;;
    .push v_update .k_set (.var v_set) ;;
    .ite (.up (.lit 1) [.WHERE]) (
      .next ;;
      .set v_where_ (.construct .KeywordWithExpr) ;;
      .next ;;
      .push v_where_ .k_expr (.call .parse_expr [.nat usizeMax, .bool false, .bool false, .bool false, .bool true]) ;;
      .push v_update .k_where (.var v_where_)) .skip ;;
    .ite (.and (.up (.lit 1) [.sym_semi]) (.bvar v_semicolon)) (
      .next ;;
      .push v_update .k_semicolon (.construct .Symbol)) .skip ;;
    .ret (.var v_update)

/-- src/parser.rs lines 2634-2714: `fn parse_merge_statement`. -/
def parse_merge_statement : FunDef where
  params := [v_semicolon]
  body :=
    .set v_merge (.construct .MergeStatement) ;;
    .ite (.up (.lit 1) [.INTO]) (
      .next ;;
      .push v_merge .k_into (.construct .Keyword)) .skip ;;
    .next ;;
    .push v_merge .k_table_name (.call .parse_table [.bool true]) ;;
    .next ;;
    .set v_using (.construct .KeywordWithExpr) ;;
    .next ;;
    .push v_using .k_expr (.call .parse_expr [.nat usizeMax, .bool true, .bool false, .bool false, .bool true]) ;;
    .push v_merge .k_using (.var v_using) ;;
    .ite (.up (.lit 1) [.sym_semi]) (
      .next ;;
      .push v_merge .k_semicolon (.construct .Symbol)) .skip ;;
    .next ;;
    .set v_on (.construct .KeywordWithExpr) ;;
    .next ;;
    .push v_on .k_expr (.call .parse_expr [.nat usizeMax, .bool false, .bool false, .bool false, .bool true]) ;;
    .push v_merge .k_on (.var v_on) ;;
    .set v_whens .nilVec ;;
    .loop (
      .ite (.up (.lit 1) [.WHEN]) (
        .next ;;
        .set v_when (.construct .WhenClause) ;;
        .ite (.up (.lit 1) [.NOT]) (
          .next ;;
          .push v_when .k_not (.construct .Keyword)) .skip ;;
        .next ;;
        .push v_when .k_matched (.construct .Keyword) ;;
        .ite (.up (.lit 1) [.BY]) (
          .next ;;
          .set v_by (.construct .Keyword) ;;
          .next ;;
          .set v_target (.construct .Keyword) ;;
          .set v_vec_tmp .nilVec ;;
          .append v_vec_tmp (.var v_by) ;;
          .append v_vec_tmp (.var v_target) ;;
          .set v_vec_tmp (.var v_vec_tmp) ;;
          .pushVec v_when .k_by_target_or_source (.var v_vec_tmp)) .skip ;;
        .ite (.up (.lit 1) [.AND]) (
          .next ;;
          .set v_and (.construct .KeywordWithExpr) ;;
          .next ;;
          .set v_cond (.call .parse_expr [.nat usizeMax, .bool false, .bool false, .bool false, .bool true]) ;;
          .push v_and .k_expr (.var v_cond) ;;
          .push v_when .k_and (.var v_and)) .skip ;;
        .next ;;
        .set v_then (.construct .KeywordWithStatement) ;;
        .next ;;
        .ite (.up (.lit 0) [.DELETE]) (
          .set v_stmt (.construct .SingleTokenStatement)) (
          .ite (.up (.lit 0) [.UPDATE]) (
            .set v_stmt (.call .parse_update_statement [.bool false])) (
            .ite (.up (.lit 0) [.INSERT]) (
              .set v_stmt (.call .parse_insert_statement [.bool false])) (
              .fail (.lit 0) 2695))) ;;
        .push v_then .k_stmt (.var v_stmt) ;;
        .push v_when .k_then (.var v_then) ;;
        .append v_whens (.var v_when)) (
        .brk)) ;;
    .pushVec v_merge .k_whens (.var v_whens) ;;
    .ite (.and (.up (.lit 1) [.sym_semi]) (.bvar v_semicolon)) (
      .next ;;
      .push v_merge .k_semicolon (.construct .Symbol)) .skip ;;
    .ret (.var v_merge)

/-- src/parser.rs lines 2716-2757: `fn parse_create_schema_statement`. -/
def parse_create_schema_statement : FunDef where
  params := [v_semicolon]
  body :=
    .set v_create (.construct .CreateSchemaStatement) ;;
    .ite (.up (.lit 1) [.EXTERNAL]) (
      .next ;;
      .push v_create .k_external (.construct .Keyword)) .skip ;;
    .next ;;
    .push v_create .k_what (.construct .Keyword) ;;
    .ite (.up (.lit 1) [.IF]) (
      .next ;;
      .pushVec v_create .k_if_not_exists (.call .parse_n_keywords [.nat 3])) .skip ;;
    .next ;;
    .push v_create .k_ident (.call .parse_identifier []) ;;
    .ite (.up (.lit 1) [.DEFAULT]) (
      .next ;;
      .set v_default (.construct .KeywordSequence) ;;
      .next ;;
      .set v_collate (.construct .KeywordWithExpr) ;;
      .next ;;
      .push v_collate .k_expr (.call .parse_expr [.nat usizeMax, .bool false, .bool false, .bool false, .bool true]) ;;
      .push v_default .k_next_keyword (.var v_collate) ;;
      .push v_create .k_default_collate (.var v_default)) .skip ;;
    .ite (.and (.up (.lit 1) [.WITH]) (.up (.lit 2) [.CONNECTION])) (
      .next ;;
      .push v_create .k_with_connection (.call .parse_with_connection_clause [])) .skip ;;
    .ite (.up (.lit 1) [.OPTIONS]) (
      .next ;;
      .push v_create .k_options (.call .parse_keyword_with_grouped_exprs [.bool false])) .skip ;;
    .ite (.and (.up (.lit 1) [.sym_semi]) (.bvar v_semicolon)) (
      .next ;;
      .push v_create .k_semicolon (.construct .Symbol)) .skip ;;
    .ret (.var v_create)

/-- src/parser.rs lines 2758-2811: `fn parse_create_search_index_statement`. -/
def parse_create_search_index_statement : FunDef where
  params := [v_semicolon]
  body :=
    .set v_create (.construct .CreateIndexStatement) ;;
    .ite (.up (.lit 1) [.OR]) (
      .next ;;
      .pushVec v_create .k_or_replace (.call .parse_n_keywords [.nat 2])) .skip ;;
    .next ;;
    .set v_what (.construct .KeywordSequence) ;;
    .next ;;
    .push v_what .k_next_keyword (.construct .Keyword) ;;
    .push v_create .k_what (.var v_what) ;;
    .ite (.up (.lit 1) [.IF]) (
      .next ;;
      .pushVec v_create .k_if_not_exists (.call .parse_n_keywords [.nat 3])) .skip ;;
    .next ;;
    .push v_create .k_ident (.call .parse_identifier []) ;;
    .next ;;
    .push v_create .k_on (.construct .Keyword) ;;
    .next ;;
    .push v_create .k_tablename (.call .parse_identifier []) ;;
    .next ;;
    .ite (.up (.lit 1) [.ALL]) (
      .set v_group (.construct .GroupedExpr) ;;
      .next ;;
      .set v_all (.construct .KeywordSequence) ;;
      .next ;;
      .push v_all .k_next_keyword (.construct .Keyword) ;;
      .push v_group .k_expr (.var v_all) ;;
      .next ;;
      .push v_group .k_rparen (.construct .Symbol) ;;
      .push v_create .k_column_group (.var v_group)) (
      .push v_create .k_column_group (.call .parse_grouped_exprs [.bool false])) ;;
    .ite (.up (.lit 1) [.STORING]) (
      .next ;;
      .push v_create .k_storing (.call .parse_keyword_with_grouped_exprs [.bool false])) .skip ;;
    .ite (.up (.lit 1) [.PARTITION]) (
      .next ;;
      .push v_create .k_partitionby (.call .parse_xxxby_exprs [])) .skip ;;
    .ite (.up (.lit 1) [.OPTIONS]) (
      .next ;;
      .push v_create .k_options (.call .parse_keyword_with_grouped_exprs [.bool false])) .skip ;;
    .ite (.and (.up (.lit 1) [.sym_semi]) (.bvar v_semicolon)) (
      .next ;;
      .push v_create .k_semicolon (.construct .Symbol)) .skip ;;
    .ret (.var v_create)

/-- src/parser.rs lines 2812-2922: `fn parse_create_table_statement`. -/
def parse_create_table_statement : FunDef where
  params := [v_semicolon]
  body :=
    .set v_create (.construct .CreateTableStatement) ;;
    .set v_external (.boolLit false) ;;
    .set v_snapshot (.boolLit false) ;;
    .ite (.up (.lit 1) [.OR]) (
      .next ;;
      .pushVec v_create .k_or_replace (.call .parse_n_keywords [.nat 2])) .skip ;;
    .ite (.up (.lit 1) [.TEMP, .TEMPORARY]) (
      .next ;;
      .push v_create .k_temp (.construct .Keyword)) .skip ;;
    .ite (.up (.lit 1) [.EXTERNAL]) (
      .set v_external (.boolLit true) ;;
      .next ;;
      .push v_create .k_external (.construct .Keyword)) .skip ;;
    .ite (.up (.lit 1) [.SNAPSHOT]) (
      .set v_snapshot (.boolLit true) ;;
      .next ;;
      .push v_create .k_snapshot (.construct .Keyword)) .skip ;;
    .next ;;
    .push v_create .k_what (.construct .Keyword) ;;
    .ite (.up (.lit 1) [.IF]) (
      .next ;;
      .pushVec v_create .k_if_not_exists (.call .parse_n_keywords [.nat 3])) .skip ;;
    .next ;;
    .push v_create .k_ident (.call .parse_identifier []) ;;
    .ite (.up (.lit 1) [.LIKE, .COPY]) (
      .next ;;
      .push v_create .k_like_or_copy (.construct .Keyword) ;;
      .next ;;
      .push v_create .k_source_table (.call .parse_identifier [])) .skip ;;
    .ite (.up (.lit 1) [.sym_lparen]) (
      .next ;;
      .push v_create .k_column_schema_group (.call .parse_grouped_type_declaration_or_constraints [.bool true, .bool false])) .skip ;;
    .ite (.up (.lit 1) [.DEFAULT]) (
      .next ;;
      .set v_default (.construct .KeywordSequence) ;;
      .next ;;
      .set v_collate (.construct .KeywordWithExpr) ;;
      .next ;;
      .push v_collate .k_expr (.construct .StringLiteral) ;;
      .push v_default .k_next_keyword (.var v_collate) ;;
      .push v_create .k_default_collate (.var v_default)) .skip ;;
    .ite (.and (.and (.up (.lit 1) [.PARTITION]) (.not (.bvar v_external))) (.not (.bvar v_snapshot))) (
      .next ;;
      .push v_create .k_partitionby (.call .parse_xxxby_exprs [])) .skip ;;
    .ite (.and (.and (.up (.lit 1) [.CLUSTER]) (.not (.bvar v_external))) (.not (.bvar v_snapshot))) (
      .next ;;
      .push v_create .k_clusterby (.call .parse_xxxby_exprs [])) .skip ;;
    .ite (.and (.and (.up (.lit 1) [.WITH]) (.up (.lit 2) [.CONNECTION])) (.bvar v_external)) (
      .next ;;
      .push v_create .k_with_connection (.call .parse_with_connection_clause [])) .skip ;;
    .ite (.and (.and (.up (.lit 1) [.WITH]) (.up (.lit 2) [.PARTITION])) (.bvar v_external)) (
      .next ;;
      .set v_with (.construct .WithPartitionColumnsClause) ;;
      .next ;;
      .pushVec v_with .k_partition_columns (.call .parse_n_keywords [.nat 2]) ;;
      .ite (.up (.lit 1) [.sym_lparen]) (
        .next ;;
        .push v_with .k_column_schema_group (.call .parse_grouped_type_declaration_or_constraints [.bool false, .bool false])) .skip ;;
      .push v_create .k_with_partition_columns (.var v_with)) .skip ;;
    .ite (.up (.lit 1) [.CLONE]) (
      .next ;;
      .set v_clone (.construct .KeywordWithExpr) ;;
      .next ;;
      .push v_clone .k_expr (.call .parse_table [.bool true]) ;;
      .push v_create .k_clone (.var v_clone)) .skip ;;
    .ite (.up (.lit 1) [.OPTIONS]) (
      .next ;;
      .push v_create .k_options (.call .parse_keyword_with_grouped_exprs [.bool false])) .skip ;;
    .ite (.up (.lit 1) [.AS]) (
      .next ;;
      .set v_as_ (.construct .KeywordWithStatement) ;;
      .next ;;
      .push v_as_ .k_stmt (.call .parse_select_statement [.bool false, .bool true]) ;;
      .push v_create .k_as (.var v_as_)) .skip ;;
    .ite (.and (.up (.lit 1) [.sym_semi]) (.bvar v_semicolon)) (
      .next ;;
      .push v_create .k_semicolon (.construct .Symbol)) .skip ;;
    .ret (.var v_create)

/-- src/parser.rs lines 2923-3009: `fn parse_create_view_statement`. -/
def parse_create_view_statement : FunDef where
  params := [v_semicolon]
  body :=
    .set v_create (.construct .CreateViewStatement) ;;
    .set v_materialized (.boolLit false) ;;
    .ite (.up (.lit 1) [.OR]) (
      .next ;;
      .pushVec v_create .k_or_replace (.call .parse_n_keywords [.nat 2])) .skip ;;
    .ite (.up (.lit 1) [.MATERIALIZED]) (
      .set v_materialized (.boolLit true) ;;
      .next ;;
      .push v_create .k_materialized (.construct .Keyword)) .skip ;;
    .next ;;
    .push v_create .k_what (.construct .Keyword) ;;
    .ite (.up (.lit 1) [.IF]) (
      .next ;;
      .pushVec v_create .k_if_not_exists (.call .parse_n_keywords [.nat 3])) .skip ;;
    .next ;;
    .push v_create .k_ident (.call .parse_identifier []) ;;
    .ite (.and (.up (.lit 1) [.sym_lparen]) (.not (.bvar v_materialized))) (
      .next ;;
      .set v_column_name_list (.construct .GroupedIdentWithOptions) ;;
      .set v_idents .nilVec ;;
      .loop (
        .next ;;
        .ite (.up (.lit 0) [.sym_rparen]) (
          .push v_column_name_list .k_rparen (.construct .Symbol) ;;
          .brk) .skip ;;
        .set v_ident (.call .parse_identifier []) ;;
        .setType v_ident .IdentWithOptions ;;
        .ite (.up (.lit 1) [.OPTIONS]) (
          .next ;;
          .push v_ident .k_options (.call .parse_keyword_with_grouped_exprs [.bool false])) .skip ;;
        .ite (.up (.lit 1) [.sym_comma]) (
          .next ;;
          .push v_ident .k_comma (.construct .Symbol)) .skip ;;
        .append v_idents (.var v_ident)) ;;
      .pushVec v_column_name_list .k_idents (.var v_idents) ;;
      .push v_create .k_column_name_list (.var v_column_name_list)) .skip ;;
    .ite (.and (.up (.lit 1) [.PARTITION]) (.bvar v_materialized)) (
      .next ;;
      .push v_create .k_partitionby (.call .parse_xxxby_exprs [])) .skip ;;
    .ite (.and (.up (.lit 1) [.CLUSTER]) (.bvar v_materialized)) (
      .next ;;
      .push v_create .k_clusterby (.call .parse_xxxby_exprs [])) .skip ;;
    .ite (.up (.lit 1) [.OPTIONS]) (
      .next ;;
      .push v_create .k_options (.call .parse_keyword_with_grouped_exprs [.bool false])) .skip ;;
    .ite (.up (.lit 1) [.AS]) (
      .next ;;
      .ite (.up (.lit 1) [.REPLICA]) (
        .set v_as_ (.construct .KeywordSequence) ;;
        .next ;;
        .set v_replica (.construct .KeywordSequence) ;;
        .next ;;
        .set v_of (.construct .KeywordWithExpr) ;;
        .next ;;
        .push v_of .k_expr (.call .parse_identifier []) ;;
        .push v_replica .k_next_keyword (.var v_of) ;;
        .push v_as_ .k_next_keyword (.var v_replica) ;;
        .push v_create .k_as (.var v_as_)) (
        .set v_as_ (.construct .KeywordWithStatement) ;;
        .next ;;
        .push v_as_ .k_stmt (.call .parse_select_statement [.bool false, .bool true]) ;;
        .push v_create .k_as (.var v_as_))) .skip ;;
    .ite (.and (.up (.lit 1) [.sym_semi]) (.bvar v_semicolon)) (
      .next ;;
      .push v_create .k_semicolon (.construct .Symbol)) .skip ;;
    .ret (.var v_create)

/-- src/parser.rs lines 3010-3132: `fn parse_create_function_statement`. -/
def parse_create_function_statement : FunDef where
  params := [v_semicolon]
  body :=
    .set v_node (.construct .CreateFunctionStatement) ;;
    .set v_is_tvf (.boolLit false) ;;
    .ite (.up (.lit 1) [.OR]) (
      .next ;;
      .pushVec v_node .k_or_replace (.call .parse_n_keywords [.nat 2])) .skip ;;
    .ite (.up (.lit 1) [.TEMPORARY, .TEMP]) (
      .next ;;
      .push v_node .k_temp (.construct .Keyword)) .skip ;;
    .ite (.up (.lit 1) [.TABLE]) (
      .next ;;
      .push v_node .k_table (.construct .Keyword) ;;
      .set v_is_tvf (.boolLit true)) .skip ;;
    .ite (.up (.lit 1) [.AGGREGATE]) (
      .next ;;
      .push v_node .k_aggregate (.construct .Keyword)) .skip ;;
    .next ;;
    .push v_node .k_what (.construct .Keyword) ;;
    .ite (.up (.lit 1) [.IF]) (
      .next ;;
      .pushVec v_node .k_if_not_exists (.call .parse_n_keywords [.nat 3])) .skip ;;
    .next ;;
    .push v_node .k_ident (.call .parse_identifier []) ;;
    .next ;;
    .push v_node .k_group (.call .parse_grouped_type_declaration_or_constraints [.bool false, .bool true]) ;;
    .ite (.up (.lit 1) [.RETURNS]) (
      .next ;;
      .set v_returns (.construct .KeywordWithType) ;;
      .next ;;
      .push v_returns .k_type (.call .parse_type [.bool false, .bool false]) ;;
      .push v_node .k_returns (.var v_returns)) .skip ;;
    .ite (.up (.lit 1) [.REMOTE]) (
      .next ;;
      .push v_node .k_remote (.construct .Keyword) ;;
      .next ;;
      .set v_with (.construct .KeywordSequence) ;;
      .next ;;
      .set v_connection (.construct .KeywordWithExpr) ;;
      .next ;;
      .push v_connection .k_expr (.call .parse_identifier []) ;;
      .push v_with .k_next_keyword (.var v_connection) ;;
      .push v_node .k_connection (.var v_with) ;;
      .ite (.up (.lit 1) [.OPTIONS]) (
        .next ;;
        .push v_node .k_options (.call .parse_keyword_with_grouped_exprs [.bool false])) .skip) (
      .ite (.up (.lit 1) [.AS]) (
        .next ;;
        .ite (.bvar v_is_tvf) (
          .set v_as_ (.construct .KeywordWithStatement) ;;
          .next ;;
          .push v_as_ .k_stmt (.call .parse_select_statement [.bool false, .bool true]) ;;
          .push v_node .k_as (.var v_as_)) (
          .set v_as_ (.construct .KeywordWithGroupedXXX) ;;
          .next ;;
          .set v_group (.construct .GroupedExpr) ;;
          .next ;;
          .push v_group .k_expr (.call .parse_expr [.nat usizeMax, .bool false, .bool false, .bool false, .bool true]) ;;
          .next ;;
          .push v_group .k_rparen (.construct .Symbol) ;;
          .push v_as_ .k_group (.var v_group) ;;
          .push v_node .k_as (.var v_as_))) (
        .ite (.up (.lit 1) [.DETERMINISTIC, .NOT]) (
          .next ;;
          .ite (.up (.lit 0) [.NOT]) (
            .pushVec v_node .k_determinism (.call .parse_n_keywords [.nat 2])) (
            .pushVec v_node .k_determinism (.call .parse_n_keywords [.nat 1]))) .skip ;;
        .next ;;
        .set v_language (.construct .KeywordWithExpr) ;;
        .next ;;
        .push v_language .k_expr (.construct .Identifier) ;;
        .push v_node .k_language (.var v_language) ;;
        .ite (.up (.lit 1) [.WITH]) (
          .next ;;
          .set v_with (.construct .KeywordSequence) ;;
          .next ;;
          .set v_connection (.construct .KeywordWithExpr) ;;
          .next ;;
          .push v_connection .k_expr (.call .parse_identifier []) ;;
          .push v_with .k_next_keyword (.var v_connection) ;;
          .push v_node .k_connection (.var v_with)) .skip ;;
        .ite (.up (.lit 1) [.OPTIONS]) (
          .next ;;
          .push v_node .k_options (.call .parse_keyword_with_grouped_exprs [.bool false])) .skip ;;
        .next ;;
        .set v_as_ (.construct .KeywordWithExpr) ;;
        .next ;;
        .push v_as_ .k_expr (.call .parse_expr [.nat usizeMax, .bool false, .bool false, .bool false, .bool true]) ;;
        .push v_node .k_as (.var v_as_))) ;;
    .ite (.and (.up (.lit 1) [.sym_semi]) (.bvar v_semicolon)) (
      .next ;;
      .push v_node .k_semicolon (.construct .Symbol)) .skip ;;
    .ret (.var v_node)

/-- src/parser.rs lines 3133-3196: `fn parse_create_procedure_statement`. -/
def parse_create_procedure_statement : FunDef where
  params := [v_semicolon]
  body :=
    .set v_create (.construct .CreateProcedureStatement) ;;
    .ite (.up (.lit 1) [.OR]) (
      .next ;;
      .pushVec v_create .k_or_replace (.call .parse_n_keywords [.nat 2])) .skip ;;
    .next ;;
    .push v_create .k_what (.construct .Keyword) ;;
    .ite (.up (.lit 1) [.IF]) (
      .next ;;
      .pushVec v_create .k_if_not_exists (.call .parse_n_keywords [.nat 3])) .skip ;;
    .next ;;
    .push v_create .k_ident (.call .parse_identifier []) ;;
    .next ;;
    .push v_create .k_group (.call .parse_grouped_type_declaration_or_constraints [.bool true, .bool false]) ;;
    .ite (.up (.lit 1) [.EXTERNAL]) (
      .next ;;
      .set v_external (.construct .KeywordSequence) ;;
      .next ;;
      .set v_security (.construct .KeywordSequence) ;;
      .next ;;
      .set v_external_security (.construct .Keyword) ;;
      .push v_security .k_next_keyword (.var v_external_security) ;;
      .push v_external .k_next_keyword (.var v_security) ;;
      .push v_create .k_external (.var v_external)) .skip ;;
    .ite (.up (.lit 1) [.WITH]) (
      .next ;;
      .push v_create .k_with_connection (.call .parse_with_connection_clause [])) .skip ;;
    .ite (.up (.lit 1) [.OPTIONS]) (
      .next ;;
      .push v_create .k_options (.call .parse_keyword_with_grouped_exprs [.bool false])) .skip ;;
    .ite (.up (.lit 1) [.LANGUAGE]) (
      .next ;;
      .set v_language (.construct .KeywordWithExpr) ;;
      .next ;;
      .push v_language .k_expr (.construct .Identifier) ;;
      .push v_create .k_language (.var v_language)) .skip ;;
    .ite (.up (.lit 1) [.BEGIN]) (
      .next ;;
      .push v_create .k_stmt (.call .parse_begin_statement [.bool false])) (
      .ite (.up (.lit 1) [.AS]) (
        .next ;;
        .set v_as_ (.construct .KeywordWithExpr) ;;
        .next ;;
        .push v_as_ .k_expr (.call .parse_expr [.nat usizeMax, .bool false, .bool false, .bool false, .bool true]) ;;
        .push v_create .k_as (.var v_as_)) .skip) ;;
    .ite (.and (.up (.lit 1) [.sym_semi]) (.bvar v_semicolon)) (
      .next ;;
      .push v_create .k_semicolon (.construct .Symbol)) .skip ;;
    .ret (.var v_create)

/-- src/parser.rs lines 3197-3241: `fn parse_create_row_access_policy_statement`. -/
def parse_create_row_access_policy_statement : FunDef where
  params := [v_semicolon]
  body :=
    .set v_create (.construct .CreateRowAccessPolicyStatement) ;;
    .ite (.up (.lit 1) [.OR]) (
      .next ;;
      .pushVec v_create .k_or_replace (.call .parse_n_keywords [.nat 2])) .skip ;;
    .next ;;
    .pushVec v_create .k_what (.call .parse_n_keywords [.nat 3]) ;;
    .ite (.up (.lit 1) [.IF]) (
      .next ;;
      .pushVec v_create .k_if_not_exists (.call .parse_n_keywords [.nat 3])) .skip ;;
    .next ;;
    .push v_create .k_ident (.call .parse_identifier []) ;;
    .next ;;
    .set v_on (.construct .KeywordWithExpr) ;;
    .next ;;
    .push v_on .k_expr (.call .parse_identifier []) ;;
    .push v_create .k_on (.var v_on) ;;
    .ite (.up (.lit 1) [.GRANT]) (
      .next ;;
      .push v_create .k_grant (.construct .Keyword) ;;
      .next ;;
      .set v_to (.construct .KeywordWithGroupedXXX) ;;
      .next ;;
      .push v_to .k_group (.call .parse_grouped_exprs [.bool false]) ;;
      .push v_create .k_to (.var v_to)) .skip ;;
    .next ;;
    .push v_create .k_filter (.construct .Keyword) ;;
    .next ;;
    .set v_using (.construct .KeywordWithExpr) ;;
    .next ;;
    .push v_using .k_expr (.call .parse_expr [.nat usizeMax, .bool false, .bool false, .bool false, .bool true]) ;;
    .push v_create .k_using (.var v_using) ;;
    .ite (.and (.up (.lit 1) [.sym_semi]) (.bvar v_semicolon)) (
      .next ;;
      .push v_create .k_semicolon (.construct .Symbol)) .skip ;;
    .ret (.var v_create)

/-- src/parser.rs lines 3242-3327: `fn parse_create_model_statement`. -/
def parse_create_model_statement : FunDef where
  params := [v_semicolon]
  body :=
    .set v_create (.construct .CreateModelStatement) ;;
    .ite (.up (.lit 1) [.OR]) (
      .next ;;
      .pushVec v_create .k_or_replace (.call .parse_n_keywords [.nat 2])) .skip ;;
    .next ;;
    .push v_create .k_what (.construct .Keyword) ;;
    .ite (.up (.lit 1) [.IF]) (
      .next ;;
      .pushVec v_create .k_if_not_exists (.call .parse_n_keywords [.nat 3])) .skip ;;
    .next ;;
    .push v_create .k_ident (.call .parse_identifier []) ;;
    .ite (.up (.lit 1) [.TRANSFORM]) (
      .next ;;
      .push v_create .k_transform (.call .parse_keyword_with_grouped_exprs [.bool true])) .skip ;;
    .ite (.up (.lit 1) [.INPUT]) (
      .next ;;
      .set v_input (.construct .KeywordWithGroupedXXX) ;;
      .next ;;
      .push v_input .k_group (.call .parse_grouped_type_declaration_or_constraints [.bool false, .bool false]) ;;
      .push v_create .k_input (.var v_input)) .skip ;;
    .ite (.up (.lit 1) [.OUTPUT]) (
      .next ;;
      .set v_output (.construct .KeywordWithGroupedXXX) ;;
      .next ;;
      .push v_output .k_group (.call .parse_grouped_type_declaration_or_constraints [.bool false, .bool false]) ;;
      .push v_create .k_output (.var v_output)) .skip ;;
    .ite (.up (.lit 1) [.REMOTE]) (
      .next ;;
      .set v_remote (.construct .KeywordSequence) ;;
      .next ;;
      .set v_with (.construct .KeywordSequence) ;;
      .next ;;
      .set v_connection (.construct .KeywordWithExpr) ;;
      .next ;;
      .ite (.up (.lit 0) [.DEFAULT]) (
        .push v_connection .k_expr (.construct .Keyword)) (
        .push v_connection .k_expr (.call .parse_identifier [])) ;;
      .push v_with .k_next_keyword (.var v_connection) ;;
      .push v_remote .k_next_keyword (.var v_with) ;;
      .push v_create .k_remote (.var v_remote)) .skip ;;
    .ite (.up (.lit 1) [.OPTIONS]) (
      .next ;;
      .push v_create .k_options (.call .parse_keyword_with_grouped_exprs [.bool false])) .skip ;;
    .ite (.up (.lit 1) [.AS]) (
      .next ;;
      .ite (.up (.lit 2) [.TRAINING_DATA]) (
        .set v_as_ (.construct .KeywordWithGroupedXXX) ;;
        .next ;;
        .set v_group (.construct .TrainingDataCustomHolidayClause) ;;
        .next ;;
        .push v_group .k_training_data (.call .parse_cte []) ;;
        .next ;;
        .push v_group .k_custom_holiday (.call .parse_cte []) ;;
        .next ;;
        .push v_group .k_rparen (.construct .Symbol) ;;
        .push v_as_ .k_group (.var v_group) ;;
        .push v_create .k_training_data_custom_holiday (.var v_as_)) (
        .set v_as_ (.construct .KeywordWithStatement) ;;
        .next ;;
        .push v_as_ .k_stmt (.call .parse_select_statement [.bool false, .bool true]) ;;
        .push v_create .k_query (.var v_as_))) .skip ;;
    .ite (.and (.up (.lit 1) [.sym_semi]) (.bvar v_semicolon)) (
      .next ;;
      .push v_create .k_semicolon (.construct .Symbol)) .skip ;;
    .ret (.var v_create)

/-- src/parser.rs lines 3328-3398: `fn parse_alter_schema_statement`. -/
def parse_alter_schema_statement : FunDef where
  params := [v_semicolon]
  body :=
    .set v_alter (.construct .AlterSchemaStatement) ;;
    .next ;;
    .push v_alter .k_what (.construct .Keyword) ;;
    .ite (.up (.lit 1) [.IF]) (
      .next ;;
      .pushVec v_alter .k_if_exists (.call .parse_n_keywords [.nat 2])) .skip ;;
    .next ;;
    .push v_alter .k_ident (.call .parse_identifier []) ;;
    .next ;;
    .ite (.up (.lit 0) [.SET]) (
      .push v_alter .k_set (.construct .Keyword) ;;
      .ite (.up (.lit 1) [.DEFAULT]) (
        .next ;;
        .set v_default (.construct .KeywordSequence) ;;
        .next ;;
        .set v_collate (.construct .KeywordWithExpr) ;;
        .next ;;
        .push v_collate .k_expr (.construct .StringLiteral) ;;
        .push v_default .k_next_keyword (.var v_collate) ;;
        .push v_alter .k_default_collate (.var v_default)) .skip) (
      .ite (.up (.lit 0) [.ADD]) (
        .set v_add (.construct .KeywordSequence) ;;
        .next ;;
        .set v_replica (.construct .KeywordWithExpr) ;;
        .next ;;
        .set v_ident (.call .parse_identifier []) ;;
        .push v_replica .k_expr (.var v_ident) ;;
        .push v_add .k_next_keyword (.var v_replica) ;;
        .push v_alter .k_add (.var v_add)) (
        .ite (.up (.lit 0) [.DROP]) (
          .set v_drop (.construct .KeywordSequence) ;;
          .next ;;
          .set v_replica (.construct .KeywordWithExpr) ;;
          .next ;;
          .set v_ident (.call .parse_identifier []) ;;
          .push v_replica .k_expr (.var v_ident) ;;
          .push v_drop .k_next_keyword (.var v_replica) ;;
          .push v_alter .k_drop (.var v_drop)) (
          .fail (.lit 0) 3380))) ;;
    .ite (.up (.lit 1) [.OPTIONS]) (
      .next ;;
      .push v_alter .k_options (.call .parse_keyword_with_grouped_exprs [.bool false])) .skip ;;
    .ite (.and (.up (.lit 1) [.sym_semi]) (.bvar v_semicolon)) (
      .next ;;
      .push v_alter .k_semicolon (.construct .Symbol)) .skip ;;
    .ret (.var v_alter)

/-- src/parser.rs lines 3399-3568: `fn parse_alter_table_statement`. -/
def parse_alter_table_statement : FunDef where
  params := [v_semicolon]
  body :=
    .set v_alter (.construct .AlterTableStatement) ;;
    .next ;;
    .push v_alter .k_what (.construct .Keyword) ;;
    .ite (.up (.lit 1) [.IF]) (
      .next ;;
      .pushVec v_alter .k_if_exists (.call .parse_n_keywords [.nat 2])) .skip ;;
    .next ;;
    .push v_alter .k_ident (.call .parse_identifier []) ;;
    .ite (.up (.lit 1) [.SET]) (
      .next ;;
      .push v_alter .k_set (.construct .Keyword) ;;
      .ite (.up (.lit 1) [.OPTIONS]) (
        .next ;;
        .push v_alter .k_options (.call .parse_keyword_with_grouped_exprs [.bool false])) (
        .ite (.up (.lit 1) [.DEFAULT]) (
          .next ;;
          .set v_default (.construct .KeywordSequence) ;;
          .next ;;
          .set v_collate (.construct .KeywordWithExpr) ;;
          .next ;;
          .push v_collate .k_expr (.construct .StringLiteral) ;;
          .push v_default .k_next_keyword (.var v_collate) ;;
          .push v_alter .k_default_collate (.var v_default)) .skip)) (
      .ite (.up (.lit 1) [.ADD]) (
        .ite (.up (.lit 2) [.COLUMN]) (
          .set v_add_columns .nilVec ;;
          .loop (
            .ite (.up (.lit 1) [.ADD]) (
              .next ;;
              .set v_add_column (.construct .AddColumnClause) ;;
              .next ;;
              .push v_add_column .k_what (.construct .Keyword) ;;
              .ite (.up (.lit 1) [.IF]) (
                .next ;;
                .pushVec v_add_column .k_if_not_exists (.call .parse_n_keywords [.nat 3])) .skip ;;
              .next ;;
              .set v_ident (.construct .TypeDeclaration) ;;
              .next ;;
              .push v_ident .k_type (.call .parse_type [.bool true, .bool false]) ;;
              .push v_add_column .k_type_declaration (.var v_ident) ;;
              .ite (.up (.lit 1) [.sym_comma]) (
                .next ;;
                .push v_add_column .k_comma (.construct .Symbol)) .skip ;;
              .append v_add_columns (.var v_add_column)) (
              .brk)) ;;
          .pushVec v_alter .k_add_columns (.var v_add_columns)) (
          .set v_add_constraints .nilVec ;;
          .loop (
            .ite (.up (.lit 1) [.ADD]) (
              .next ;;
              .set v_add_constraint (.construct .AddConstraintClause) ;;
              .next ;;
              .set v_constraint (.call .parse_constraint []) ;;
              .ite (.up (.lit 1) [.sym_comma]) (
                .next ;;
                .push v_add_constraint .k_comma (.construct .Symbol)) .skip ;;
              .push v_add_constraint .k_what (.var v_constraint) ;;
              .append v_add_constraints (.var v_add_constraint)) (
              .brk)) ;;
          .pushVec v_alter .k_add_constraints (.var v_add_constraints))) (
        .ite (.up (.lit 1) [.RENAME]) (
          .ite (.up (.lit 2) [.TO]) (
            .next ;;
            .push v_alter .k_rename (.construct .Keyword) ;;
            .next ;;
            .set v_to (.construct .KeywordWithExpr) ;;
            .next ;;
            .push v_to .k_expr (.call .parse_identifier []) ;;
            .push v_alter .k_to (.var v_to)) (
            .set v_rename_columns .nilVec ;;
            .loop (
              .ite (.up (.lit 1) [.RENAME]) (
                .next ;;
                .set v_rename (.construct .RenameColumnClause) ;;
                .next ;;
                .push v_rename .k_column (.construct .Keyword) ;;
                .ite (.up (.lit 1) [.IF]) (
                  .next ;;
                  .set v_if_ (.construct .KeywordSequence) ;;
                  .next ;;
                  .push v_if_ .k_next_keyword (.construct .Keyword) ;;
                  .push v_rename .k_if_exists (.var v_if_)) .skip ;;
                .next ;;
                .push v_rename .k_ident (.call .parse_identifier []) ;;
                .next ;;
                .set v_to (.construct .KeywordWithExpr) ;;
                .next ;;
                .push v_to .k_expr (.call .parse_identifier []) ;;
                .ite (.up (.lit 1) [.sym_comma]) (
                  .next ;;
                  .push v_rename .k_comma (.construct .Symbol)) .skip ;;
                .push v_rename .k_to (.var v_to) ;;
                .append v_rename_columns (.var v_rename)) (
                .brk)) ;;
            .pushVec v_alter .k_rename_columns (.var v_rename_columns))) (
          .ite (.up (.lit 1) [.DROP]) (
            .set v_drop_columns .nilVec ;;
            .loop (
              .ite (.up (.lit 1) [.DROP]) (
                .next ;;
                .set v_drop_column (.construct .AlterTableDropClause) ;;
                .ite (.up (.lit 1) [.PRIMARY]) (
                  .next ;;
                  .set v_pk (.construct .KeywordWithExpr) ;;
                  .next ;;
                  .push v_pk .k_expr (.construct .Keyword) ;;
                  .push v_drop_column .k_what (.var v_pk) ;;
                  .ite (.up (.lit 1) [.IF]) (
                    .next ;;
                    .pushVec v_drop_column .k_if_exists (.call .parse_n_keywords [.nat 2])) .skip) (
                  .next ;;
                  .push v_drop_column .k_what (.construct .Keyword) ;;
                  .ite (.up (.lit 1) [.IF]) (
                    .next ;;
                    .pushVec v_drop_column .k_if_exists (.call .parse_n_keywords [.nat 2])) .skip ;;
                  .next ;;
                  .push v_drop_column .k_ident (.call .parse_identifier [])) ;;
                .ite (.up (.lit 1) [.sym_comma]) (
                  .next ;;
                  .push v_drop_column .k_comma (.construct .Symbol)) .skip ;;
                .append v_drop_columns (.var v_drop_column)) (
                .brk)) ;;
            .pushVec v_alter .k_drop_columns (.var v_drop_columns)) (
            .ite (.up (.lit 1) [.ALTER]) (
              .next ;;
              .push v_alter .k_alter_column_stmt (.call .parse_alter_column_statement [.bool false])) (
              .fail (.lit 1) 3554))))) ;;
    .ite (.and (.up (.lit 1) [.sym_semi]) (.bvar v_semicolon)) (
      .next ;;
      .push v_alter .k_semicolon (.construct .Symbol)) .skip ;;
    .ret (.var v_alter)

/-- src/parser.rs lines 3569-3624: `fn parse_alter_column_statement`. -/
def parse_alter_column_statement : FunDef where
  params := [v_semicolon]
  body :=
    .set v_alter (.construct .AlterColumnStatement) ;;
    .next ;;
    .push v_alter .k_what (.construct .Keyword) ;;
    .ite (.up (.lit 1) [.IF]) (
      .next ;;
      .pushVec v_alter .k_if_exists (.call .parse_n_keywords [.nat 2])) .skip ;;
    .next ;;
    .push v_alter .k_ident (.construct .Identifier) ;;
    .next ;;
    .ite (.up (.lit 0) [.SET]) (
      .push v_alter .k_set (.construct .Keyword) ;;
      .ite (.up (.lit 1) [.OPTIONS]) (
        .next ;;
        .push v_alter .k_options (.call .parse_keyword_with_grouped_exprs [.bool false])) (
        .ite (.up (.lit 1) [.DATA]) (
          .next ;;
          .pushVec v_alter .k_data_type (.call .parse_n_keywords [.nat 2]) ;;
          .next ;;
          .push v_alter .k_type (.call .parse_type [.bool false, .bool false])) (
          .next ;;
          .set v_default (.construct .KeywordWithExpr) ;;
          .next ;;
          .push v_default .k_expr (.call .parse_expr [.nat usizeMax, .bool false, .bool false, .bool false, .bool true]) ;;
          .push v_alter .k_default (.var v_default)))) (
      .ite (.up (.lit 0) [.DROP]) (
        .ite (.up (.lit 1) [.DEFAULT]) (
          .pushVec v_alter .k_drop_default (.call .parse_n_keywords [.nat 2])) (
          .pushVec v_alter .k_drop_not_null (.call .parse_n_keywords [.nat 3]))) (
        .fail (.lit 0) 3610)) ;;
    .ite (.and (.up (.lit 1) [.sym_semi]) (.bvar v_semicolon)) (
      .next ;;
      .push v_alter .k_semicolon (.construct .Symbol)) .skip ;;
    .ret (.var v_alter)

/-- src/parser.rs lines 3625-3654: `fn parse_alter_vector_index_statement`. -/
def parse_alter_vector_index_statement : FunDef where
  params := [v_semicolon]
  body :=
    .set v_alter (.construct .AlterVectorIndexStatement) ;;
    .next ;;
    .set v_vector (.construct .KeywordSequence) ;;
    .next ;;
    .push v_vector .k_next_keyword (.construct .Keyword) ;;
    .push v_alter .k_what (.var v_vector) ;;
    .ite (.up (.lit 1) [.IF]) (
      .next ;;
      .pushVec v_alter .k_if_exists (.call .parse_n_keywords [.nat 2])) .skip ;;
    .next ;;
    .push v_alter .k_ident (.call .parse_identifier []) ;;
    .next ;;
    .set v_on (.construct .KeywordWithExpr) ;;
    .next ;;
    .push v_on .k_expr (.call .parse_identifier []) ;;
    .push v_alter .k_on (.var v_on) ;;
    .next ;;
    .set v_operation (.construct .Keyword) ;;
    .push v_alter .k_operation (.var v_operation) ;;
    .ite (.and (.up (.lit 1) [.sym_semi]) (.bvar v_semicolon)) (
      .next ;;
      .push v_alter .k_semicolon (.construct .Symbol)) .skip ;;
    .ret (.var v_alter)

/-- src/parser.rs lines 3655-3684: `fn parse_alter_view_statement`. -/
def parse_alter_view_statement : FunDef where
  params := [v_semicolon]
  body :=
    .set v_alter (.construct .AlterViewStatement) ;;
    .ite (.up (.lit 1) [.MATERIALIZED]) (
      .next ;;
      .push v_alter .k_materialized (.construct .Keyword)) .skip ;;
    .next ;;
    .push v_alter .k_what (.construct .Keyword) ;;
    .ite (.up (.lit 1) [.IF]) (
      .next ;;
      .pushVec v_alter .k_if_exists (.call .parse_n_keywords [.nat 2])) .skip ;;
    .next ;;
    .push v_alter .k_ident (.call .parse_identifier []) ;;
    .ite (.up (.lit 1) [.ALTER]) (
      .next ;;
      .set v_alter_column (.call .parse_alter_column_statement [.bool false]) ;;
      .push v_alter .k_alter_column_stmt (.var v_alter_column)) (
      .next ;;
      .push v_alter .k_set (.construct .Keyword) ;;
      .next ;;
      .push v_alter .k_options (.call .parse_keyword_with_grouped_exprs [.bool false])) ;;
    .ite (.and (.up (.lit 1) [.sym_semi]) (.bvar v_semicolon)) (
      .next ;;
      .push v_alter .k_semicolon (.construct .Symbol)) .skip ;;
    .ret (.var v_alter)

/-- src/parser.rs lines 3685-3698: `fn parse_alter_organization_statement`. -/
def parse_alter_organization_statement : FunDef where
  params := [v_semicolon]
  body :=
    .set v_alter (.construct .AlterOrganizationStatement) ;;
    .next ;;
    .push v_alter .k_what (.construct .Keyword) ;;
    .next ;;
    .push v_alter .k_set (.construct .Keyword) ;;
    .next ;;
    .push v_alter .k_options (.call .parse_keyword_with_grouped_exprs [.bool false]) ;;
    .ite (.and (.up (.lit 1) [.sym_semi]) (.bvar v_semicolon)) (
      .next ;;
      .push v_alter .k_semicolon (.construct .Symbol)) .skip ;;
    .ret (.var v_alter)

/-- src/parser.rs lines 3699-3716: `fn parse_alter_project_statement`. -/
def parse_alter_project_statement : FunDef where
  params := [v_semicolon]
  body :=
    .set v_alter (.construct .AlterProjectStatement) ;;
    .next ;;
    .push v_alter .k_what (.construct .Keyword) ;;
    .ite (.not (.up (.lit 1) [.SET])) (
      .next ;;
      .push v_alter .k_ident (.call .parse_identifier [])) .skip ;;
    .next ;;
    .push v_alter .k_set (.construct .Keyword) ;;
    .next ;;
    .push v_alter .k_options (.call .parse_keyword_with_grouped_exprs [.bool false]) ;;
    .ite (.and (.up (.lit 1) [.sym_semi]) (.bvar v_semicolon)) (
      .next ;;
      .push v_alter .k_semicolon (.construct .Symbol)) .skip ;;
    .ret (.var v_alter)

/-- src/parser.rs lines 3717-3732: `fn parse_alter_bicapacity_statement`. -/
def parse_alter_bicapacity_statement : FunDef where
  params := [v_semicolon]
  body :=
    .set v_alter (.construct .AlterBICapacityStatement) ;;
    .next ;;
    .push v_alter .k_what (.construct .Keyword) ;;
    .next ;;
    .push v_alter .k_ident (.call .parse_identifier []) ;;
    .next ;;
    .push v_alter .k_set (.construct .Keyword) ;;
    .next ;;
    .push v_alter .k_options (.call .parse_keyword_with_grouped_exprs [.bool false]) ;;
    .ite (.and (.up (.lit 1) [.sym_semi]) (.bvar v_semicolon)) (
      .next ;;
      .push v_alter .k_semicolon (.construct .Symbol)) .skip ;;
    .ret (.var v_alter)

/-- src/parser.rs lines 3733-3748: `fn parse_alter_reservation_statement`. -/
def parse_alter_reservation_statement : FunDef where
  params := [v_semicolon]
  body :=
    .set v_alter (.construct .AlterReservationStatement) ;;
    .next ;;
    .push v_alter .k_what (.construct .Keyword) ;;
    .next ;;
    .push v_alter .k_ident (.call .parse_identifier []) ;;
    .next ;;
    .push v_alter .k_set (.construct .Keyword) ;;
    .next ;;
    .push v_alter .k_options (.call .parse_keyword_with_grouped_exprs [.bool false]) ;;
    .ite (.and (.up (.lit 1) [.sym_semi]) (.bvar v_semicolon)) (
      .next ;;
      .push v_alter .k_semicolon (.construct .Symbol)) .skip ;;
    .ret (.var v_alter)

/-- src/parser.rs lines 3749-3768: `fn parse_alter_model_statement`. -/
def parse_alter_model_statement : FunDef where
  params := [v_semicolon]
  body :=
    .set v_alter (.construct .AlterModelStatement) ;;
    .next ;;
    .push v_alter .k_what (.construct .Keyword) ;;
    .ite (.up (.lit 1) [.IF]) (
      .next ;;
      .pushVec v_alter .k_if_exists (.call .parse_n_keywords [.nat 2])) .skip ;;
    .next ;;
    .push v_alter .k_ident (.call .parse_identifier []) ;;
    .next ;;
    .push v_alter .k_set (.construct .Keyword) ;;
    .next ;;
    .push v_alter .k_options (.call .parse_keyword_with_grouped_exprs [.bool false]) ;;
    .ite (.and (.up (.lit 1) [.sym_semi]) (.bvar v_semicolon)) (
      .next ;;
      .push v_alter .k_semicolon (.construct .Symbol)) .skip ;;
    .ret (.var v_alter)

/-- src/parser.rs lines 3769-3795: `fn parse_drop_row_access_policy_statement`. -/
def parse_drop_row_access_policy_statement : FunDef where
  params := [v_semicolon]
  body :=
    .set v_drop (.construct .DropRowAccessPolicyStatement) ;;
    .next ;;
    .ite (.up (.lit 0) [.ROW]) (
      .pushVec v_drop .k_what (.call .parse_n_keywords [.nat 3])) (
      .pushVec v_drop .k_what (.call .parse_n_keywords [.nat 4])) ;;
    .ite (.up (.lit 1) [.IF]) (
      .next ;;
      .pushVec v_drop .k_if_exists (.call .parse_n_keywords [.nat 2])) .skip ;;
    .ite (.not (.up (.lit 1) [.ON])) (
      .next ;;
      .push v_drop .k_ident (.call .parse_identifier [])) .skip ;;
    .next ;;
    .set v_on (.construct .KeywordWithExpr) ;;
    .next ;;
    .push v_on .k_expr (.call .parse_identifier []) ;;
    .push v_drop .k_on (.var v_on) ;;
    .ite (.and (.up (.lit 1) [.sym_semi]) (.bvar v_semicolon)) (
      .next ;;
      .push v_drop .k_semicolon (.construct .Symbol)) .skip ;;
    .ret (.var v_drop)

/-- src/parser.rs lines 3796-3842: `fn parse_drop_statement_general`. -/
def parse_drop_statement_general : FunDef where
  params := [v_semicolon]
  body :=
    .set v_drop (.construct .DropStatement) ;;
    .ite (.up (.lit 1) [.EXTERNAL]) (
      .next ;;
      .push v_drop .k_external (.construct .Keyword)) (
      .ite (.up (.lit 1) [.MATERIALIZED]) (
        .next ;;
        .push v_drop .k_materialized (.construct .Keyword)) (
        .ite (.and (.up (.lit 1) [.TABLE]) (.up (.lit 2) [.FUNCTION])) (
          .next ;;
          .push v_drop .k_table (.construct .Keyword)) .skip)) ;;
    .next ;;
    .ite (.up (.lit 0) [.SEARCH]) (
      .set v_what (.construct .KeywordSequence) ;;
      .next ;;
      .push v_what .k_next_keyword (.construct .Keyword) ;;
      .push v_drop .k_what (.var v_what)) (
      .push v_drop .k_what (.construct .Keyword)) ;;
    .ite (.up (.lit 1) [.IF]) (
      .next ;;
      .pushVec v_drop .k_if_exists (.call .parse_n_keywords [.nat 2])) .skip ;;
    .next ;;
    .push v_drop .k_ident (.call .parse_identifier []) ;;
    .ite (.up (.lit 1) [.CASCADE, .RESTRICT]) (
      .next ;;
      .push v_drop .k_cascade_or_restrict (.construct .Keyword)) .skip ;;
    .ite (.up (.lit 1) [.ON]) (
      .next ;;
      .set v_on (.construct .KeywordWithExpr) ;;
      .next ;;
      .push v_on .k_expr (.call .parse_identifier []) ;;
      .push v_drop .k_on (.var v_on)) .skip ;;
    .ite (.and (.up (.lit 1) [.sym_semi]) (.bvar v_semicolon)) (
      .next ;;
      .push v_drop .k_semicolon (.construct .Symbol)) .skip ;;
    .ret (.var v_drop)

/-- src/parser.rs lines 3843-3858: `fn parse_undrop_statement`. -/
def parse_undrop_statement : FunDef where
  params := [v_semicolon]
  body :=
    .set v_undrop (.construct .UndropStatement) ;;
    .next ;;
    .push v_undrop .k_what (.construct .Keyword) ;;
    .ite (.up (.lit 1) [.IF]) (
      .next ;;
      .pushVec v_undrop .k_if_not_exists (.call .parse_n_keywords [.nat 3])) .skip ;;
    .next ;;
    .push v_undrop .k_ident (.call .parse_identifier []) ;;
    .ite (.and (.up (.lit 1) [.sym_semi]) (.bvar v_semicolon)) (
      .next ;;
      .push v_undrop .k_semicolon (.construct .Symbol)) .skip ;;
    .ret (.var v_undrop)

/-- src/parser.rs lines 3860-3880: `fn parse_grant_statement`. -/
def parse_grant_statement : FunDef where
  params := [v_semicolon]
  body :=
    .set v_grant (.construct .GrantStatement) ;;
    .next ;;
    .pushVec v_grant .k_roles (.call .parse_exprs [.kws [], .bool false, .bool true]) ;;
    .next ;;
    .push v_grant .k_on (.construct .Keyword) ;;
    .next ;;
    .push v_grant .k_resource_type (.construct .Keyword) ;;
    .next ;;
    .push v_grant .k_ident (.call .parse_identifier []) ;;
    .next ;;
    .set v_to (.construct .KeywordWithExprs) ;;
    .next ;;
    .pushVec v_to .k_exprs (.call .parse_exprs [.kws [], .bool false, .bool true]) ;;
    .push v_grant .k_to (.var v_to) ;;
    .ite (.and (.up (.lit 1) [.sym_semi]) (.bvar v_semicolon)) (
      .next ;;
      .push v_grant .k_semicolon (.construct .Symbol)) .skip ;;
    .ret (.var v_grant)

/-- src/parser.rs lines 3881-3901: `fn parse_revoke_statement`. -/
def parse_revoke_statement : FunDef where
  params := [v_semicolon]
  body :=
    .set v_revoke (.construct .RevokeStatement) ;;
    .next ;;
    .pushVec v_revoke .k_roles (.call .parse_exprs [.kws [], .bool false, .bool true]) ;;
    .next ;;
    .push v_revoke .k_on (.construct .Keyword) ;;
    .next ;;
    .push v_revoke .k_resource_type (.construct .Keyword) ;;
    .next ;;
    .push v_revoke .k_ident (.call .parse_identifier []) ;;
    .next ;;
    .set v_from (.construct .KeywordWithExprs) ;;
    .next ;;
    .pushVec v_from .k_exprs (.call .parse_exprs [.kws [], .bool false, .bool true]) ;;
    .push v_revoke .k_from (.var v_from) ;;
    .ite (.and (.up (.lit 1) [.sym_semi]) (.bvar v_semicolon)) (
      .next ;;
      .push v_revoke .k_semicolon (.construct .Symbol)) .skip ;;
    .ret (.var v_revoke)

/-- src/parser.rs lines 3902-3928: `fn parse_create_reservation_statement`. -/
def parse_create_reservation_statement : FunDef where
  params := [v_semicolon]
  body :=
    .set v_create (.construct .CreateReservationStatement) ;;
    .next ;;
    .push v_create .k_what (.construct .Keyword) ;;
    .next ;;
    .push v_create .k_ident (.call .parse_identifier []) ;;
    .ite (.up (.lit 1) [.AS]) (
      .next ;;
      .push v_create .k_as (.construct .Keyword) ;;
      .next ;;
      .push v_create .k_json (.construct .Keyword) ;;
      .next ;;
      .push v_create .k_json_string (.call .parse_expr [.nat usizeMax, .bool false, .bool false, .bool false, .bool true])) (
      .ite (.up (.lit 1) [.OPTIONS]) (
        .next ;;
        .push v_create .k_options (.call .parse_keyword_with_grouped_exprs [.bool false])) .skip) ;;
    .ite (.and (.up (.lit 1) [.sym_semi]) (.bvar v_semicolon)) (
      .next ;;
      .push v_create .k_semicolon (.construct .Symbol)) .skip ;;
    .ret (.var v_create)

/-- src/parser.rs lines 3930-3965: `fn parse_declare_statement`. -/
def parse_declare_statement : FunDef where
  params := [v_semicolon]
  body :=
    .set v_declare (.construct .DeclareStatement) ;;
    .set v_idents .nilVec ;;
    .loop (
      .next ;;
      .ite (.up (.lit 1) [.sym_comma]) (
        .set v_ident (.call .parse_identifier []) ;;
        .next ;;
        .push v_ident .k_comma (.construct .Symbol) ;;
        .append v_idents (.var v_ident)) (
        .append v_idents (.call .parse_identifier []) ;;
        .brk)) ;;
    .pushVec v_declare .k_idents (.var v_idents) ;;
    .ite (.not (.up (.lit 1) [.DEFAULT])) (
      .next ;;
      .push v_declare .k_variable_type (.call .parse_type [.bool false, .bool false])) .skip ;;
    .ite (.up (.lit 1) [.DEFAULT]) (
      .next ;;
      .set v_default (.construct .KeywordWithExpr) ;;
      .next ;;
      .push v_default .k_expr (.call .parse_expr [.nat usizeMax, .bool false, .bool false, .bool false, .bool true]) ;;
      .push v_declare .k_default (.var v_default)) .skip ;;
    .ite (.and (.up (.lit 1) [.sym_semi]) (.bvar v_semicolon)) (
      .next ;;
      .push v_declare .k_semicolon (.construct .Symbol)) .skip ;;
    .ret (.var v_declare)

/-- src/parser.rs lines 3966-3978: `fn parse_set_statement`. -/
def parse_set_statement : FunDef where
  params := [v_semicolon]
  body :=
    .set v_set (.construct .SetStatement) ;;
    .next ;;
    .push v_set .k_expr (.call .parse_expr [.nat usizeMax, .bool false, .bool false, .bool false, .bool true]) ;;
    .ite (.and (.up (.lit 1) [.sym_semi]) (.bvar v_semicolon)) (
      .next ;;
      .push v_set .k_semicolon (.construct .Symbol)) .skip ;;
    .ret (.var v_set)

/-- src/parser.rs lines 3979-4019: `fn parse_execute_statement`. -/
def parse_execute_statement : FunDef where
  params := [v_semicolon]
  body :=
    .set v_execute (.construct .ExecuteStatement) ;;
    .next ;;
    .push v_execute .k_immediate (.construct .Keyword) ;;
    .next ;;
    .push v_execute .k_sql_expr (.call .parse_expr [.nat usizeMax, .bool false, .bool false, .bool false, .bool true]) ;;
    .ite (.up (.lit 1) [.INTO]) (
      .next ;;
      .set v_into (.construct .KeywordWithExprs) ;;
      .set v_idents .nilVec ;;
      .loop (
        .next ;;
        .ite (.up (.lit 1) [.sym_comma]) (
          .set v_ident (.call .parse_identifier []) ;;
          .next ;;
          .push v_ident .k_comma (.construct .Symbol) ;;
          .append v_idents (.var v_ident)) (
          .append v_idents (.call .parse_identifier []) ;;
          .brk)) ;;
      .pushVec v_into .k_exprs (.var v_idents) ;;
      .push v_execute .k_into (.var v_into)) .skip ;;
    .ite (.up (.lit 1) [.USING]) (
      .next ;;
      .set v_using (.construct .KeywordWithExprs) ;;
      .next ;;
      .pushVec v_using .k_exprs (.call .parse_exprs [.kws [], .bool true, .bool true]) ;;
      .push v_execute .k_using (.var v_using)) .skip ;;
    .ite (.and (.up (.lit 1) [.sym_semi]) (.bvar v_semicolon)) (
      .next ;;
      .push v_execute .k_semicolon (.construct .Symbol)) .skip ;;
    .ret (.var v_execute)

/-- src/parser.rs lines 4020-4048: `fn parse_begin_statement`. -/
def parse_begin_statement : FunDef where
  params := [v_semicolon]
  body :=
    .set v_begin (.construct .BeginStatement) ;;
    .set v_stmts .nilVec ;;
    .loop (
      .ite (.not (.up (.lit 1) [.END, .EXCEPTION])) (
        .next ;;
        .append v_stmts (.call .parse_statement [.bool true])) (
        .brk)) ;;
    .ite (.lenPos v_stmts) (
      .pushVec v_begin .k_stmts (.var v_stmts)) .skip ;;
    .ite (.up (.lit 1) [.EXCEPTION]) (
      .next ;;
      .set v_exception (.construct .Keyword) ;;
      .next ;;
      .set v_when (.construct .Keyword) ;;
      .next ;;
      .set v_error (.construct .Keyword) ;;
      .set v_vec_tmp .nilVec ;;
      .append v_vec_tmp (.var v_exception) ;;
      .append v_vec_tmp (.var v_when) ;;
      .append v_vec_tmp (.var v_error) ;;
      .set v_vec_tmp (.var v_vec_tmp) ;;
      .pushVec v_begin .k_exception_when_error (.var v_vec_tmp) ;;
      .next ;;
      .push v_begin .k_then (.call .parse_keyword_with_statements [.kws [.END]])) .skip ;;
    .next ;;
    .push v_begin .k_end (.construct .Keyword) ;;
    .ite (.and (.up (.lit 1) [.sym_semi]) (.bvar v_semicolon)) (
      .next ;;
      .push v_begin .k_semicolon (.construct .Symbol)) .skip ;;
    .ret (.var v_begin)

/-- src/parser.rs lines 4049-4096: `fn parse_if_statement`. -/
def parse_if_statement : FunDef where
  params := [v_semicolon]
  body :=
    .set v_if_ (.construct .IfStatement) ;;
    .next ;;
    .push v_if_ .k_condition (.call .parse_expr [.nat usizeMax, .bool false, .bool false, .bool false, .bool true]) ;;
    .next ;;
    .push v_if_ .k_then (.call .parse_keyword_with_statements [.kws [.ELSEIF, .ELSE, .END]]) ;;
    .set v_elseifs .nilVec ;;
    .loop (
      .ite (.up (.lit 1) [.ELSEIF]) (
        .next ;;
        .set v_elseif (.construct .ElseIfClause) ;;
        .next ;;
        .push v_elseif .k_condition (.call .parse_expr [.nat usizeMax, .bool false, .bool false, .bool false, .bool true]) ;;
        .next ;;
        .push v_elseif .k_then (.call .parse_keyword_with_statements [.kws [.ELSEIF, .ELSE, .END]]) ;;
        .append v_elseifs (.var v_elseif)) (
        .brk)) ;;
    .ite (.lenPos v_elseifs) (
      .pushVec v_if_ .k_elseifs (.var v_elseifs)) .skip ;;
    .ite (.up (.lit 1) [.ELSE]) (
      .next ;;
      .push v_if_ .k_else (.call .parse_keyword_with_statements [.kws [.END]])) .skip ;;
    .next ;;
    .set v_end (.construct .Keyword) ;;
    .next ;;
    .set v_vec_tmp .nilVec ;;
    .append v_vec_tmp (.var v_end) ;;
    .append v_vec_tmp (.construct .Keyword) ;;
    .set v_vec_tmp (.var v_vec_tmp) ;;
    .pushVec v_if_ .k_end_if (.var v_vec_tmp) ;;
    .ite (.and (.up (.lit 1) [.sym_semi]) (.bvar v_semicolon)) (
      .next ;;
      .push v_if_ .k_semicolon (.construct .Symbol)) .skip ;;
    .ret (.var v_if_)

/-- src/parser.rs lines 4097-4127: `fn parse_labeled_statement`. -/
def parse_labeled_statement : FunDef where
  params := [v_semicolon]
  body :=
    .set v_label (.construct .Identifier) ;;
    .next ;;
    .set v_colon (.construct .Symbol) ;;
    .next ;;
    .set v_stmt (.call .parse_statement [.bool false]) ;;
    .ite (.hasAnyKey v_stmt [.k_leading_label, .k_colon]) (
      .fail (.lit 0) 4108) .skip ;;
    .push v_stmt .k_leading_label (.var v_label) ;;
    .push v_stmt .k_colon (.var v_colon) ;;
    .ite (.not (.up (.lit 1) [.sym_semi])) (
      .next ;;
      .push v_stmt .k_trailing_label (.construct .Identifier)) .skip ;;
    .ite (.and (.up (.lit 1) [.sym_semi]) (.bvar v_semicolon)) (
      .next ;;
      .push v_stmt .k_semicolon (.construct .Symbol)) .skip ;;
    .ret (.var v_stmt)

/-- src/parser.rs lines 4128-4139: `fn parse_break_continue_statement`. -/
def parse_break_continue_statement : FunDef where
  params := [v_semicolon]
  body :=
    .set v_node (.construct .BreakContinueStatement) ;;
    .ite (.not (.up (.lit 1) [.sym_semi])) (
      .next ;;
      .push v_node .k_label (.construct .Identifier)) .skip ;;
    .ite (.and (.up (.lit 1) [.sym_semi]) (.bvar v_semicolon)) (
      .next ;;
      .push v_node .k_semicolon (.construct .Symbol)) .skip ;;
    .ret (.var v_node)

/-- src/parser.rs lines 4140-4155: `fn parse_loop_statement`. -/
def parse_loop_statement : FunDef where
  params := [v_semicolon]
  body :=
    .set v_loop_ (.call .parse_keyword_with_statements [.kws [.END]]) ;;
    .setType v_loop_ .LoopStatement ;;
    .next ;;
    .set v_end (.construct .Keyword) ;;
    .next ;;
    .set v_vec_tmp .nilVec ;;
    .append v_vec_tmp (.var v_end) ;;
    .append v_vec_tmp (.construct .Keyword) ;;
    .set v_vec_tmp (.var v_vec_tmp) ;;
    .pushVec v_loop_ .k_end_loop (.var v_vec_tmp) ;;
    .ite (.and (.up (.lit 1) [.sym_semi]) (.bvar v_semicolon)) (
      .next ;;
      .push v_loop_ .k_semicolon (.construct .Symbol)) .skip ;;
    .ret (.var v_loop_)

/-- src/parser.rs lines 4156-4174: `fn parse_repeat_statement`. -/
def parse_repeat_statement : FunDef where
  params := [v_semicolon]
  body :=
    .set v_repeat (.call .parse_keyword_with_statements [.kws [.UNTIL]]) ;;
    .setType v_repeat .RepeatStatement ;;
    .next ;;
    .set v_until (.construct .KeywordWithExpr) ;;
    .next ;;
    .push v_until .k_expr (.call .parse_expr [.nat usizeMax, .bool false, .bool false, .bool false, .bool true]) ;;
    .push v_repeat .k_until (.var v_until) ;;
    .next ;;
    .pushVec v_repeat .k_end_repeat (.call .parse_n_keywords [.nat 2]) ;;
    .ite (.and (.up (.lit 1) [.sym_semi]) (.bvar v_semicolon)) (
      .next ;;
      .push v_repeat .k_semicolon (.construct .Symbol)) .skip ;;
    .ret (.var v_repeat)

/-- src/parser.rs lines 4175-4196: `fn parse_while_statement`. -/
def parse_while_statement : FunDef where
  params := [v_semicolon]
  body :=
    .set v_while_ (.construct .WhileStatement) ;;
    .next ;;
    .push v_while_ .k_condition (.call .parse_expr [.nat usizeMax, .bool false, .bool false, .bool false, .bool true]) ;;
    .next ;;
    .push v_while_ .k_do (.call .parse_keyword_with_statements [.kws [.END]]) ;;
    .next ;;
    .set v_end (.construct .Keyword) ;;
    .next ;;
    .set v_vec_tmp .nilVec ;;
    .append v_vec_tmp (.var v_end) ;;
    .append v_vec_tmp (.construct .Keyword) ;;
    .set v_vec_tmp (.var v_vec_tmp) ;;
    .pushVec v_while_ .k_end_while (.var v_vec_tmp) ;;
    .ite (.and (.up (.lit 1) [.sym_semi]) (.bvar v_semicolon)) (
      .next ;;
      .push v_while_ .k_semicolon (.construct .Symbol)) .skip ;;
    .ret (.var v_while_)

/-- src/parser.rs lines 4197-4204: `fn parse_single_token_statement`. -/
def parse_single_token_statement : FunDef where
  params := [v_semicolon]
  body :=
    .set v_node (.construct .SingleTokenStatement) ;;
    .ite (.and (.up (.lit 1) [.sym_semi]) (.bvar v_semicolon)) (
      .next ;;
      .push v_node .k_semicolon (.construct .Symbol)) .skip ;;
    .ret (.var v_node)

/-- src/parser.rs lines 4205-4223: `fn parse_for_statement`. -/
def parse_for_statement : FunDef where
  params := [v_semicolon]
  body :=
    .set v_for_ (.construct .ForStatement) ;;
    .next ;;
    .push v_for_ .k_ident (.construct .Identifier) ;;
    .next ;;
    .set v_in_ (.construct .KeywordWithGroupedXXX) ;;
    .next ;;
    .push v_in_ .k_group (.call .parse_select_statement [.bool false, .bool true]) ;;
    .push v_for_ .k_in (.var v_in_) ;;
    .next ;;
    .push v_for_ .k_do (.call .parse_keyword_with_statements [.kws [.END]]) ;;
    .next ;;
    .pushVec v_for_ .k_end_for (.call .parse_n_keywords [.nat 2]) ;;
    .ite (.and (.up (.lit 1) [.sym_semi]) (.bvar v_semicolon)) (
      .next ;;
      .push v_for_ .k_semicolon (.construct .Symbol)) .skip ;;
    .ret (.var v_for_)

/-- src/parser.rs lines 4224-4235: `fn parse_transaction_statement`. -/
def parse_transaction_statement : FunDef where
  params := [v_semicolon]
  body :=
    .set v_node (.construct .TransactionStatement) ;;
    .ite (.up (.lit 1) [.TRANSACTION]) (
      .next ;;
      .push v_node .k_transaction (.construct .Keyword)) .skip ;;
    .ite (.and (.up (.lit 1) [.sym_semi]) (.bvar v_semicolon)) (
      .next ;;
      .push v_node .k_semicolon (.construct .Symbol)) .skip ;;
    .ret (.var v_node)

/-- src/parser.rs lines 4236-4253: `fn parse_raise_statement`. -/
def parse_raise_statement : FunDef where
  params := [v_semicolon]
  body :=
    .set v_raise (.construct .RaiseStatement) ;;
    .ite (.up (.lit 1) [.USING]) (
      .next ;;
      .set v_using (.construct .KeywordWithExpr) ;;
      .next ;;
      .push v_using .k_expr (.call .parse_expr [.nat usizeMax, .bool false, .bool false, .bool false, .bool true]) ;;
      .push v_raise .k_using (.var v_using)) .skip ;;
    .ite (.and (.up (.lit 1) [.sym_semi]) (.bvar v_semicolon)) (
      .next ;;
      .push v_raise .k_semicolon (.construct .Symbol)) .skip ;;
    .ret (.var v_raise)

/-- src/parser.rs lines 4254-4301: `fn parse_case_statement`. -/
def parse_case_statement : FunDef where
  params := [v_semicolon]
  body :=
    .set v_case (.construct .CaseStatement) ;;
    .ite (.not (.up (.lit 1) [.WHEN])) (
      .next ;;
      .push v_case .k_expr (.call .parse_expr [.nat usizeMax, .bool false, .bool false, .bool false, .bool true])) .skip ;;
    .set v_arms .nilVec ;;
    .loop (
      .ite (.up (.lit 1) [.WHEN]) (
        .next ;;
        .set v_when (.construct .CaseStatementArm) ;;
        .next ;;
        .push v_when .k_expr (.call .parse_expr [.nat usizeMax, .bool false, .bool false, .bool false, .bool true]) ;;
        .next ;;
        .push v_when .k_then (.construct .Keyword) ;;
        .set v_stmts .nilVec ;;
        .loop (
          .ite (.not (.up (.lit 1) [.WHEN, .ELSE, .END])) (
            .next ;;
            .append v_stmts (.call .parse_statement [.bool true])) (
            .brk)) ;;
        .pushVec v_when .k_stmts (.var v_stmts) ;;
        .append v_arms (.var v_when)) (
        .brk)) ;;
    .ite (.up (.lit 1) [.ELSE]) (
      .next ;;
      .set v_else_ (.construct .CaseStatementArm) ;;
      .set v_stmts .nilVec ;;
      .loop (
        .ite (.not (.up (.lit 1) [.END])) (
          .next ;;
          .append v_stmts (.call .parse_statement [.bool true])) (
          .brk)) ;;
      .pushVec v_else_ .k_stmts (.var v_stmts) ;;
      .append v_arms (.var v_else_)) .skip ;;
    .pushVec v_case .k_arms (.var v_arms) ;;
    .next ;;
    .pushVec v_case .k_end_case (.call .parse_n_keywords [.nat 2]) ;;
    .ite (.and (.up (.lit 1) [.sym_semi]) (.bvar v_semicolon)) (
      .next ;;
      .push v_case .k_semicolon (.construct .Symbol)) .skip ;;
    .ret (.var v_case)

/-- src/parser.rs lines 4302-4312: `fn parse_call_statement`. -/
def parse_call_statement : FunDef where
  params := [v_semicolon]
  body :=
    .set v_call (.construct .CallStatement) ;;
    .next ;;
    .set v_procedure (.call .parse_expr [.nat usizeMax, .bool false, .bool false, .bool false, .bool true]) ;;
    .push v_call .k_procedure (.var v_procedure) ;;
    .ite (.and (.up (.lit 1) [.sym_semi]) (.bvar v_semicolon)) (
      .next ;;
      .push v_call .k_semicolon (.construct .Symbol)) .skip ;;
    .ret (.var v_call)

/-- src/parser.rs lines 4314-4335: `fn parse_assert_satement`. -/
def parse_assert_satement : FunDef where
  params := [v_semicolon]
  body :=
    .set v_assert (.construct .AssertStatement) ;;
    .next ;;
    .push v_assert .k_expr (.call .parse_expr [.nat usizeMax, .bool false, .bool false, .bool false, .bool true]) ;;
    .ite (.up (.lit 1) [.AS]) (
      .next ;;
      .push v_assert .k_as (.construct .Keyword) ;;
      .next ;;
      .push v_assert .k_description (.call .parse_expr [.nat usizeMax, .bool false, .bool false, .bool false, .bool true])) .skip ;;
    .ite (.and (.up (.lit 1) [.sym_semi]) (.bvar v_semicolon)) (
      .next ;;
      .push v_assert .k_semicolon (.construct .Symbol)) .skip ;;
    .ret (.var v_assert)

/-- src/parser.rs lines 4337-4357: `fn parse_export_data_statement`. -/
def parse_export_data_statement : FunDef where
  params := [v_semicolon]
  body :=
    .set v_export (.construct .ExportDataStatement) ;;
    .next ;;
    .push v_export .k_data (.construct .Keyword) ;;
    .ite (.up (.lit 1) [.WITH]) (
      .next ;;
      .push v_export .k_with_connection (.call .parse_with_connection_clause [])) .skip ;;
    .next ;;
    .push v_export .k_options (.call .parse_keyword_with_grouped_exprs [.bool false]) ;;
    .next ;;
    .set v_as_ (.construct .KeywordWithStatement) ;;
    .next ;;
    .push v_as_ .k_stmt (.call .parse_statement [.bool false]) ;;
    .push v_export .k_as (.var v_as_) ;;
    .ite (.and (.up (.lit 1) [.sym_semi]) (.bvar v_semicolon)) (
      .next ;;
      .push v_export .k_semicolon (.construct .Symbol)) .skip ;;
    .ret (.var v_export)

/-- src/parser.rs lines 4358-4373: `fn parse_export_model_statement`. -/
def parse_export_model_statement : FunDef where
  params := [v_semicolon]
  body :=
    .set v_export (.construct .ExportModelStatement) ;;
    .next ;;
    .push v_export .k_what (.construct .Keyword) ;;
    .next ;;
    .push v_export .k_ident (.call .parse_identifier []) ;;
    .ite (.up (.lit 1) [.OPTIONS]) (
      .next ;;
      .push v_export .k_options (.call .parse_keyword_with_grouped_exprs [.bool false])) .skip ;;
    .ite (.and (.up (.lit 1) [.sym_semi]) (.bvar v_semicolon)) (
      .next ;;
      .push v_export .k_semicolon (.construct .Symbol)) .skip ;;
    .ret (.var v_export)

/-- src/parser.rs lines 4374-4455: `fn parse_load_statement`. -/
def parse_load_statement : FunDef where
  params := [v_semicolon]
  body :=
    .set v_load (.construct .LoadStatement) ;;
    .next ;;
    .push v_load .k_data (.construct .Keyword) ;;
    .next ;;
    .push v_load .k_into (.construct .Keyword) ;;
    .next ;;
    .push v_load .k_ident (.call .parse_identifier []) ;;
    .ite (.up (.lit 1) [.OVERWRITE, .PARTITIONS]) (
      .next ;;
      .set v_op (.construct .OverwritePartitionsClause) ;;
      .ite (.up (.lit 0) [.OVERWRITE]) (
        .set v_o (.var v_op) ;;
        .setType v_o .Keyword ;;
        .next ;;
        .set v_op (.construct .OverwritePartitionsClause) ;;
        .push v_op .k_overwrite (.var v_o)) .skip ;;
      .next ;;
      .push v_op .k_grouped_expr (.call .parse_expr [.nat 101, .bool false, .bool false, .bool false, .bool true]) ;;
      .push v_load .k_overwrite_partitions (.var v_op)) .skip ;;
    .ite (.up (.lit 1) [.sym_lparen]) (
      .next ;;
      .push v_load .k_column_group (.call .parse_grouped_type_declaration_or_constraints [.bool false, .bool false])) .skip ;;
    .ite (.up (.lit 1) [.PARTITION]) (
      .next ;;
      .push v_load .k_partitionby (.call .parse_xxxby_exprs [])) .skip ;;
    .ite (.up (.lit 1) [.CLUSTER]) (
      .next ;;
      .push v_load .k_clusterby (.call .parse_xxxby_exprs [])) .skip ;;
    .ite (.up (.lit 1) [.OPTIONS]) (
      .next ;;
      .push v_load .k_options (.call .parse_keyword_with_grouped_exprs [.bool false])) .skip ;;
    .next ;;
    .push v_load .k_from (.construct .Keyword) ;;
    .next ;;
    .push v_load .k_files (.construct .Keyword) ;;
    .next ;;
    .push v_load .k_from_files (.call .parse_grouped_exprs [.bool false]) ;;
    .ite (.and (.up (.lit 1) [.WITH]) (.up (.lit 2) [.PARTITION])) (
      .next ;;
      .set v_with (.construct .WithPartitionColumnsClause) ;;
      .next ;;
      .pushVec v_with .k_partition_columns (.call .parse_n_keywords [.nat 2]) ;;
      .ite (.up (.lit 1) [.sym_lparen]) (
        .next ;;
        .push v_with .k_column_schema_group (.call .parse_grouped_type_declaration_or_constraints [.bool false, .bool false])) .skip ;;
      .push v_load .k_with_partition_columns (.var v_with)) .skip ;;
    .ite (.and (.up (.lit 1) [.WITH]) (.up (.lit 2) [.CONNECTION])) (
      .next ;;
      .push v_load .k_with (.construct .Keyword) ;;
      .next ;;
      .push v_load .k_connection (.construct .Keyword) ;;
      .next ;;
      .push v_load .k_connection_name (.call .parse_identifier [])) .skip ;;
    .ite (.and (.up (.lit 1) [.sym_semi]) (.bvar v_semicolon)) (
      .next ;;
      .push v_load .k_semicolon (.construct .Symbol)) .skip ;;
    .ret (.var v_load)

/-- The function table (src/parser.rs). -/
def defs : Fn → FunDef
  | .parse_between_operator => parse_between_operator
  | .parse_binary_operator => parse_binary_operator
  | .parse_constraint => parse_constraint
  | .parse_cte => parse_cte
  | .parse_enforced => parse_enforced
  | .parse_expr => parse_expr
  | .parse_exprs => parse_exprs
  | .parse_grouped_exprs => parse_grouped_exprs
  | .parse_grouped_type_declaration_or_constraints => parse_grouped_type_declaration_or_constraints
  | .parse_identifier => parse_identifier
  | .parse_single_or_multi_token_identifier => parse_single_or_multi_token_identifier
  | .parse_in_operator => parse_in_operator
  | .parse_is_distinct_from_operator => parse_is_distinct_from_operator
  | .parse_keyword_with_grouped_exprs => parse_keyword_with_grouped_exprs
  | .parse_keyword_with_statements => parse_keyword_with_statements
  | .parse_n_keywords => parse_n_keywords
  | .parse_set_operator => parse_set_operator
  | .parse_statement => parse_statement
  | .parse_table => parse_table
  | .parse_type => parse_type
  | .parse_window_expr => parse_window_expr
  | .parse_with_connection_clause => parse_with_connection_clause
  | .parse_with_clause => parse_with_clause
  | .parse_window_clause => parse_window_clause
  | .parse_xxxby_exprs => parse_xxxby_exprs
  | .parse_groupby_exprs => parse_groupby_exprs
  | .parse_table_sample_ratio => parse_table_sample_ratio
  | .parse_pivot_config_clause => parse_pivot_config_clause
  | .parse_unpivot_config_clause => parse_unpivot_config_clause
  | .parse_match_recognize_clause => parse_match_recognize_clause
  | .parse_match_recognize_config => parse_match_recognize_config
  | .parse_by_name_clause => parse_by_name_clause
  | .parse_pattern_clause => parse_pattern_clause
  | .parse_grouped_pattern => parse_grouped_pattern
  | .parse_pattern => parse_pattern
  | .parse_quantifier => parse_quantifier
  | .parse_corresponding_clause => parse_corresponding_clause
  | .push_trailing_alias => push_trailing_alias
  | .parse_select_statement => parse_select_statement
  | .parse_from_statement => parse_from_statement
  | .parse_pipe_statement => parse_pipe_statement
  | .parse_select_pipe_operator => parse_select_pipe_operator
  | .parse_limit_pipe_operator => parse_limit_pipe_operator
  | .parse_aggregate_pipe_operator => parse_aggregate_pipe_operator
  | .parse_union_pipe_operator => parse_union_pipe_operator
  | .parse_join_pipe_operator => parse_join_pipe_operator
  | .parse_tablesample_pipe_operator => parse_tablesample_pipe_operator
  | .parse_pivot_pipe_operator => parse_pivot_pipe_operator
  | .parse_unpivot_pipe_operator => parse_unpivot_pipe_operator
  | .parse_with_pipe_operator => parse_with_pipe_operator
  | .parse_match_recognize_pipe_operator => parse_match_recognize_pipe_operator
  | .parse_base_pipe_operator => parse_base_pipe_operator
  | .parse_insert_statement => parse_insert_statement
  | .parse_delete_statement => parse_delete_statement
  | .parse_truncate_statement => parse_truncate_statement
  | .parse_update_statement => parse_update_statement
  | .parse_merge_statement => parse_merge_statement
  | .parse_create_schema_statement => parse_create_schema_statement
  | .parse_create_search_index_statement => parse_create_search_index_statement
  | .parse_create_table_statement => parse_create_table_statement
  | .parse_create_view_statement => parse_create_view_statement
  | .parse_create_function_statement => parse_create_function_statement
  | .parse_create_procedure_statement => parse_create_procedure_statement
  | .parse_create_row_access_policy_statement => parse_create_row_access_policy_statement
  | .parse_create_model_statement => parse_create_model_statement
  | .parse_alter_schema_statement => parse_alter_schema_statement
  | .parse_alter_table_statement => parse_alter_table_statement
  | .parse_alter_column_statement => parse_alter_column_statement
  | .parse_alter_vector_index_statement => parse_alter_vector_index_statement
  | .parse_alter_view_statement => parse_alter_view_statement
  | .parse_alter_organization_statement => parse_alter_organization_statement
  | .parse_alter_project_statement => parse_alter_project_statement
  | .parse_alter_bicapacity_statement => parse_alter_bicapacity_statement
  | .parse_alter_reservation_statement => parse_alter_reservation_statement
  | .parse_alter_model_statement => parse_alter_model_statement
  | .parse_drop_row_access_policy_statement => parse_drop_row_access_policy_statement
  | .parse_drop_statement_general => parse_drop_statement_general
  | .parse_undrop_statement => parse_undrop_statement
  | .parse_grant_statement => parse_grant_statement
  | .parse_revoke_statement => parse_revoke_statement
  | .parse_create_reservation_statement => parse_create_reservation_statement
  | .parse_declare_statement => parse_declare_statement
  | .parse_set_statement => parse_set_statement
  | .parse_execute_statement => parse_execute_statement
  | .parse_begin_statement => parse_begin_statement
  | .parse_if_statement => parse_if_statement
  | .parse_labeled_statement => parse_labeled_statement
  | .parse_break_continue_statement => parse_break_continue_statement
  | .parse_loop_statement => parse_loop_statement
  | .parse_repeat_statement => parse_repeat_statement
  | .parse_while_statement => parse_while_statement
  | .parse_single_token_statement => parse_single_token_statement
  | .parse_for_statement => parse_for_statement
  | .parse_transaction_statement => parse_transaction_statement
  | .parse_raise_statement => parse_raise_statement
  | .parse_case_statement => parse_case_statement
  | .parse_call_statement => parse_call_statement
  | .parse_assert_satement => parse_assert_satement
  | .parse_export_data_statement => parse_export_data_statement
  | .parse_export_model_statement => parse_export_model_statement
  | .parse_load_statement => parse_load_statement

end Verif.Program
