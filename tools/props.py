import json
P=[]
def p(id,title,statement,quantifier,why,anchors):
    P.append(dict(id=id,title=title,statement=statement,quantifier=quantifier,why_tests_cant=why,anchors=anchors))
LX="src/lexer.rs"; PR="src/parser.rs"; TK="src/token.rs"; CS="src/cst.rs"; LB="src/lib.rs"; ER="src/error.rs"; TY="src/types.rs"
p("C01","tokenize is lossless",
 "Whenever tokenize(code) succeeds, code is exactly gap0 + literal1 + gap1 + ... + literalN + gapN, where literal1..literalN are the literals of the returned tokens in order (the final EOF token excluded) and every gap consists of whitespace characters only.",
 "every input string on which tokenize returns Ok","unbounded set of strings; every interleaving of token kinds, comments and whitespace has to be covered",
 [LX+": Lexer::tokenize_code, Lexer::next_token, Lexer::skip_whitespace, read_*"])
p("C02","token positions are true source positions",
 "For every token returned by tokenize other than EOF, line is 1 + the number of newlines before the first character of the token in the input, and column is 1 + the number of characters between the last preceding newline (or the start of input) and that character. Consequently tokens are strictly increasing in (line, column) order.",
 "every input string and every token returned","positions are accumulated over unboundedly long inputs containing multi-line tokens",
 [LX+": Lexer::next_char, Lexer::construct_token, Lexer::next_token"])
p("C03","exactly one EOF token, at the end",
 "A successful tokenize returns a list whose last element is the EOF token (empty literal, line and column usize::MAX) and none of whose other tokens has an empty literal.",
 "every input string on which tokenize returns Ok","a zero-length literal could appear for any combination of characters",
 [LX+": Lexer::tokenize_code", TK+": Token::eof"])
p("C04","tokenize always terminates with at most one token per character",
 "tokenize finishes on every input (Ok, error or panic, never an endless loop), and on success it returns at most (number of characters + 1) tokens.",
 "every input string","non-termination on some input cannot be excluded by running finitely many inputs",
 [LX+": Lexer::tokenize_code, Lexer::next_token, '{' arm, read_*"])
p("C05","tokenize panics exactly on a leading lone <",
 "tokenize panics if and only if the first non-whitespace character of the input is `<` and the next character is none of `<`, `=`, `>`. (The crash itself is a defect of the code; every other input gives Ok or a proper error.)",
 "every input string","absence of a panic on all other inputs is a universal statement",
 [LX+": Lexer::next_token '<' arm (tokens.last().unwrap())"])
p("C06","tokenizer errors are located correctly",
 "If tokenize returns an error, then either its message is `Unexpected EOF.` and its line/column is the position of the end of the input, or its message is `Invalid character as an identifier.` and its line/column is the position right after a run of `@` characters, at a character that can neither start an identifier nor be a back quote.",
 "every input string on which tokenize returns Err","error positions depend on the whole consumed prefix",
 [LX+": Lexer::next_char, Lexer::read_identifier, Lexer::read_parameter", ER+": BQ2CSTError::new"])
p("C07","string literals end at the first unescaped matching quote",
 "When the next token starts with a quote character q (single or double, not tripled), its literal is q body q where body contains no q preceded by an even number of backslashes; when it starts with q q q the literal is q q q body q q q where body contains no unescaped occurrence of q q q; newlines and the other quote character inside do not end it.",
 "every input suffix starting with a quote","escape parity is an unbounded counter",
 [LX+": Lexer::read_string, Lexer::read_multiline_string"])
p("C08","comment extents",
 "A `#` or `--` comment token covers exactly the characters up to (not including) the next newline or the end of input, without trailing whitespace; a `/*` comment token ends at the first `*/` found at or after its own second character (so `/*/` is a complete comment).",
 "every input suffix starting a comment","unbounded comment bodies",
 [LX+": Lexer::read_comment, Lexer::read_multiline_comment"])
p("C09","leading, trailing and inter-token whitespace does not change the tokens",
 "Inserting or removing whitespace characters before the first token or after the last token, or changing one non-empty whitespace gap into another (keeping a newline first after a line comment), leaves the sequence of token literals unchanged.",
 "every input string and every replacement whitespace","all whitespace strings in all contexts",
 [LX+": Lexer::skip_whitespace, Lexer::next_token"])
p("C10","angle brackets are split only inside ARRAY< / STRUCT<",
 "If no `<` token directly follows an ARRAY or STRUCT token, every `>>` and `>=` occurring where a token starts is returned as a single two character token; conversely each single `<` after ARRAY/STRUCT makes exactly one later `>` be returned as a one character token even when it is followed by `>` or `=`.",
 "every input string","depends on an unbounded nesting counter over the whole history",
 [LX+": Lexer::type_declaration_depth, '<' and '>' arms"])
p("C11","tokenization is compositional",
 "If tokenize(a) succeeds with no pending ARRAY</STRUCT< bracket and whitespace w is non-empty (starting with a newline when a ends in a line comment), then the literals of tokenize(a + w + b) are those of a followed by those of b.",
 "every pair of inputs a, b and whitespace w","lexer state (position, line, depth) could leak across the boundary",
 [LX+": Lexer::next_token, Lexer::tokenize_code"])
p("C12","parse always terminates",
 "parse finishes on every input: no endless loop and no unbounded recursion; recursion depth is bounded by a constant times the number of tokens.",
 "every input string / every token list","backtracking and about 100 mutually recursive functions; a looping input might never be tried",
 [PR+": all parse_* functions"])
p("C13","a successful parse ends in exactly one EOF node",
 "On success parse returns a non-empty list of nodes whose last element has node_type EOF, a null token and at most leading_comments as children, and no other top-level node has node_type EOF.",
 "every input on which parse returns Ok","all inputs",
 [PR+": Parser::parse_code, Parser::construct_node"])
p("C14","the tree never invents or duplicates a token",
 "On success, the multiset of tokens occurring in the returned trees (as node tokens or as comment nodes) is contained in the multiset of tokens returned by tokenize for the same input, without the EOF token.",
 "every input on which parse returns Ok","each of the roughly one thousand construct_node calls could duplicate a token on some path",
 [PR+": Parser::construct_node, Parser::next_token, all parse_* functions", CS+": Node::push_node"])
p("C15","the concrete syntax tree is lossless",
 "On success every token returned by tokenize (comments included, EOF excluded) occurs in the returned trees exactly once, unless a tree contains a MERGE statement with a semicolon, a labelled FROM or pipe statement with a semicolon, or a column type with a primary key, a references clause and an enforcement. In these cases a child can be overwritten and its tokens lost (MERGE with two semicolons, labelled FROM / pipe statement with two semicolons, column with two NOT ENFORCED clauses); what is lost then is a semicolon with its comments, or the enforcement of such a column.",
 "every input on which parse returns Ok","each path through the parser could skip a token",
 [PR+": Parser::construct_node, Parser::next_token, all parse_* functions", CS+": Node::push_node, Node::push_node_vec"])
p("C16","comments are attached to the right token, once",
 "Every comment node in a tree hangs under leading_comments or trailing_comments of a node; the leading comments of a node directly precede its token in the token list and its trailing comments directly follow it and start on the same line as the token.",
 "every input on which parse returns Ok, every comment","every placement of comments between any two tokens",
 [PR+": Parser::new, Parser::next_token, Parser::construct_node"])
p("C17","the parser panics only on an identifier missing at the end of input",
 "parse never panics with an index out of range or an empty pop; the only reachable panic after successful tokenization is the unwrap of the first character of the (empty) EOF literal when an identifier is required and the input ends at or right after it (for example TRUNCATE TABLE).",
 "every input string","absence of panics over all inputs",
 [PR+": Parser::parse_identifier, Parser::get_token, Parser::parse_expr (pop), Parser::parse_select_pipe_operator (pop)"])
p("C18","keyword matching is case-insensitive",
 "Changing the ASCII case of any letters of the tokens changes neither success/failure nor the shape of the trees: node types, child keys and token positions stay the same and literals differ only in case. The same holds for two source texts that differ only in the case of ASCII letters (or both fail with the same error).",
 "every token list and every case change; every two texts equal up to case","every keyword comparison in the parser must agree",
 [TK+": Token::is, Token::in_, Token::is_identifier", PR+": all literal.to_uppercase() matches"])
p("C19","comments do not influence parsing",
 "Removing all comment tokens from the token list changes neither success/failure nor the trees, except that leading_comments and trailing_comments children disappear. Overwriting the comments of a source text with blanks has the same effect and leaves all positions, unless a comment stands directly before a `<`: a comment between ARRAY or STRUCT and `<` is not ignored and can make a valid query fail.",
 "every token list; every text and all its comments","comments may occur between any two tokens and get_token skips them at every lookahead",
 [PR+": Parser::get_offset_index, Parser::next_token, Parser::construct_node"])
p("C20","parsing does not depend on absolute positions",
 "Changing the lines and columns of the tokens in a way that keeps which consecutive tokens touch each other, and which comments stand on the line of the token before them, leaves success/failure and the trees unchanged up to the stored positions. In particular replacing the white space between tokens of a source text by other white space does.",
 "every token list and every relocation of its tokens; every text and every respacing of it","all layouts",
 [PR+": Parser::parse_identifier (adjacency test), Parser::next_token"])
p("C21","trees conform to the published TypeScript types",
 "In every returned tree, each child key of a node is one that the exported TypeScript declarations (types.rs) declare for that node_type, and it holds a single node or an array as declared, except for the 280 combinations of node_type and key listed as deviations; each listed deviation does occur on some input.",
 "every input on which parse returns Ok, every node","about 150 node types built on many paths; tests see only a few shapes",
 [TY+": all type declarations", PR+": push_node / push_node_vec calls"])
p("C22","operator precedence",
 "Every operator of a returned tree groups its operands by the documented precedences (calls and subscripts; field access and prefix - + ~; * / ||; + -; shifts; &; ^; |; comparisons, LIKE, IS, IN, BETWEEN; NOT; AND; OR; =>), operators of equal precedence to the left: every unbracketed operator with which a right operand starts binds strictly tighter than the operator it belongs to, and every open operator with which a left operand ends binds at least as tight. Every binary operator has a precedence. The only exception is a left operand that ends with ASC, DESC or NULLS FIRST/LAST.",
 "every input on which parse returns Ok, every operator node, all operators reached through left (right) operands","arbitrarily nested operator chains",
 [PR+": Parser::get_precedence, Parser::parse_expr, Parser::parse_binary_operator, Parser::parse_between_operator, Parser::parse_in_operator, Parser::parse_is_distinct_from_operator"])
p("C23","parse errors point at an input token",
 "If parse fails, the reported line and column are those of a token returned by tokenize for that input (the EOF token, with the usize::MAX sentinel, included), or the failure is the tokenizer's own error.",
 "every input on which parse returns Err","every error site and every lookahead",
 [PR+": BQ2CSTError::from_token uses, Parser::get_offset_index", ER+": BQ2CSTError::from_token"])
p("C24","top-level statements partition the token list in order",
 "On success the token list splits into consecutive slices, one per top-level node in order; the tokens of each statement tree come from its own slice (all of it, when lossless), and the EOF node holds the comments of the last slice.",
 "every input on which parse returns Ok","all inputs",
 [PR+": Parser::parse_code, Parser::next_token"])
p("C25","semicolon and comma children are what they say",
 "In every returned tree a node under the key semicolon has literal `;`, and a node under the key comma has literal `,`.",
 "every input on which parse returns Ok, every node","every push site and path",
 [PR+": push_node(\"semicolon\", ..), push_node(\"comma\", ..)"])
p("C26","literal node types agree with their tokens",
 "In every returned tree a NullLiteral node has a token equal to NULL ignoring case, a BooleanLiteral node TRUE or FALSE, a Parameter node starts with ? or @, a Template node starts with {, and an Asterisk node is `*`.",
 "every input on which parse returns Ok, every node","every classification path",
 [PR+": Parser::construct_node (Unknown), Parser::parse_expr", TK+": is_boolean, is_parameter, is_template"])
p("C27","classification of identifier tokens",
 "A token is classified as an identifier exactly when it is back-quoted, or has the shape [A-Za-z_][A-Za-z0-9_]* and is not one of the 96 reserved keywords in any letter case.",
 "every literal string","all strings",
 [TK+": Token::is_identifier, Token::is_reserved_keyword","src/constants.rs: KEYWORDS"])
p("C28","numeric tokens",
 "Every token starting with a digit (or with `.` and a digit) has the shape digits [. digits] [e|E [+|-] digits] read maximally; it is classified numeric exactly when it does not end in a bare `.`, `.e`-less fraction or empty exponent, i.e. when it matches ([0-9]+|[0-9]*.[0-9]+)([eE][+-]?[0-9]+)?.",
 "every input suffix starting a number","all digit strings",
 [LX+": Lexer::read_number", TK+": Token::is_numeric"])
p("C29","parse reports tokenizer errors unchanged",
 "If tokenize(code) fails with an error (or panics), parse(code) fails with the same error (or panic).",
 "every input string","all inputs",
 [LB+": parse, tokenize"])
p("C30","comment-only input",
 "If the input contains only whitespace and comments, parse succeeds and returns a single EOF node whose leading_comments are exactly the comments, in order (absent when there are none).",
 "every input whose tokens are all comments","arbitrarily many comments",
 [PR+": Parser::new, Parser::parse_code, Parser::construct_node"])
p("C31","child keys are unique and node construction is HashMap-like",
 "In every returned tree each node has at most one child per key.",
 "every input on which parse returns Ok, every node","all push sequences",
 [CS+": Node::push_node, Node::push_node_vec"])
p("C32","the textual rendering of a tree lists exactly its nodes",
 "Node's Display output lists the node's literal and type, then every child key in sorted order with the rendering of the child, each line indented by twice its depth; the set of rendered keys is exactly the set of child keys.",
 "every node","all trees",
 [CS+": Node::format, fmt::Display for Node"])
p("C33","tokens of nodes",
 "In every returned tree a node has no token only if its node_type is EOF or TypeDeclaration; and for the node_types named after a keyword or symbol (102 of them, for example BinaryOperator, WithClause, CreateTableStatement) the token is, up to letter case, one of the keywords or symbols listed for that type.",
 "every input on which parse returns Ok, every node","about 150 node types built on many paths; a node type can be changed after construction",
 [PR+": Parser::construct_node and all node_type assignments", TY+": token fields"])
p("C34","children declared mandatory are present",
 "In every returned tree a child declared without `?` in the exported TypeScript declarations is present, except for the 47 combinations of node_type and key listed as deviations; each listed deviation does occur on some input.",
 "every input on which parse returns Ok, every node","every path through each parse function must push the key",
 [TY+": all type declarations", PR+": push_node / push_node_vec calls"])
p("C35","children have the declared node types",
 "In every returned tree a child whose declared type is a union of concrete node types has one of these node types, except for the 26 combinations of node_type and key listed as deviations; each listed deviation does occur on some input.",
 "every input on which parse returns Ok, every node","a child is built by recursive functions that can return many types",
 [TY+": NodeChild / NodeVecChild with concrete types", PR+": push_node / push_node_vec calls"])
p("C36","trees follow the order of the source",
 "Written out part by part (its own token and its children, each as a contiguous block, in an order fixed per node_type except for the listed pairs that may be swapped), the returned trees give the tokens of the input in their order: all of them when none is lost, otherwise a subsequence. In particular the tokens of a subtree are contiguous, elements of arrays stand in source order, and of two parts of a node the one listed first stands first.",
 "every input on which parse returns Ok, every node, every pair of parts","children are stored in hash maps, nodes are built bottom-up, retyped and nested on many paths",
 [PR+": every parse_* function", CS+": Node::push_node, Node::push_node_vec"])
p("C37","scripts of the grammar are accepted",
 "If the tokens of the input, without comments, form a sequence of statements of the grammar in lean/Verif/Spec/Grammar.lean separated by semicolons, and no word touches the following token unless that is a string or a symbol other than `|>`, then parse returns Ok with one tree per statement and the EOF node. Some statements of GoogleSQL outside the grammar are rejected by the code.",
 "every input whose tokens are derived from the grammar, with statements and expressions of any size and depth","infinitely many scripts; each rule can be nested in each other one",
 [PR+": every parse_* function"])
p("C38","children play fixed roles",
 "In every returned tree the children under a key play the roles of the table in lean/Verif/Spec/Roles.lean (637 entries): depending on the node_type of the parent, and for generic node_types on its token, they have the listed node_types and tokens, and they do not carry the listed children of their own (for example an alias, a comma, a sort direction); children of certain node_types have the listed children and tokens (for example a KeywordSequence the next keyword). In particular `order` holds ASC or DESC, `comma` a comma, `as` of an expression the keyword AS, `over` an OverClause, and declared keys listed without types never occur.",
 "every input on which parse returns Ok, every node, every child","the role is lost by a wrong node_type, a wrong key or a wrong flag on any of thousands of paths",
 [PR+": every parse_* function", CS+": Node::push_node, Node::push_node_vec"])
p("C39","the JavaScript values represent the result and conform to the TypeScript declarations",
 "parse returns an array with one object per tree: each node an object with exactly the properties token (null or an object with line, column and literal), node_type and children, and children an object with one property per child, {Node: object} or {NodeVec: array}. The array determines the trees up to the order in which children are listed, whatever the iteration order of the hash maps. Every object inside it that has a node_type conforms to the TypeScript declaration of this type, up to the exceptions of C21, C34 and C35. When tokenizing or parsing reports an error, an object with exactly line, column and message is thrown; tokenize returns the array of the tokens.",
 "every input, every iteration order of the hash maps, every object inside the returned value","all inputs, and hash maps have a random order",
 [LB+": parse, tokenize", CS+": Node, ContentType, NodeType", "src/token.rs: Token", "src/error.rs: BQ2CSTError", TY+": all type declarations"])
p("C40","error messages are true",
 "When parse fails after tokenizing, the error points at a token of the input, its message is one of eleven listed ones, which can be told apart by their beginning, and a token shown in the message is the one at the position of the error. What the message says is true of this token: after `Expected ... but got` it is none of the expected words (and follows NOT where the message is about NOT); after `not found around here` it is CREATE or ALTER and none of the words is among the next five tokens; `Followed by unexpected EOF` points at the end. Two messages in the program are never produced. The two messages of tokenize point at the end of the input, and at a character after `@` with which no identifier starts.",
 "every input on which parse or tokenize returns an error","every error site on every path of all parse functions, all tokens that can stand there",
 [PR+": every BQ2CSTError::from_token", "src/error.rs: BQ2CSTError", "src/lexer.rs: Lexer::tokenize_code"])
p("C41","statements are parsed independently of what follows",
 "If the tokens of the input begin with n complete statements of the grammar in lean/Verif/Spec/Grammar.lean, each followed by its semicolon (INSERT, CREATE TABLE, CREATE VIEW, CREATE FUNCTION and EXPORT DATA statements that end in a query with `|>` excepted), then parsing these statements alone succeeds with one tree each, and parsing the whole input gives these trees followed by the trees of the remaining tokens (up to attached comments), or the error or panic of the remaining tokens.",
 "every sequence of complete statements of any number and size, every continuation, also malformed ones","the parser looks several tokens ahead and a statement could take tokens that belong to the next one; infinitely many continuations",
 [PR+": Parser::parse_code, parse_statement and every parse_* function"])
p("C42","scripts can be concatenated",
 "Let a be a text of n complete statements of the grammar, each with its semicolon and with all type brackets closed, w white space with a line break, and b any text that can be tokenized. Then parse(a) succeeds with n trees and the EOF node, and parse(a + w + b) succeeds exactly if parse(b) does: its trees are those of a without the EOF node, followed by those of b with their tokens moved to their places (up to attached comments). If parse(b) fails, parse(a + w + b) fails with the same message at the place moved accordingly.",
 "every text a of complete statements, every text b, every white space between them","infinitely many pairs of texts",
 [LB+": parse", "src/lexer.rs: Lexer::tokenize_code", PR+": Parser::parse_code and every parse_* function"])
p("C43","the tokens of every text are specified",
 "tokenize(code) succeeds with the literals l1 … ln exactly if code consists of these literals with white space around them, each of them is a token in front of the text after it, and the first is not <. The kinds of tokens are: words (letters, digits and _, as long as possible), numbers (as long as possible), strings with one or three quotes, names in back quotes, comments to the end of the line or from /* to the first */, parameters (one or more @ and a name), templates (n opening braces to the next n closing braces), a single { before @, a digit or a comma, the symbols || |> << <= <> => !=, outside of the brackets of ARRAY<…> and STRUCT<…> also >> and >=, and otherwise every other character alone. There is only one way to read a text like this.",
 "every text, every list of literals","infinitely many texts, and combinations of kinds of tokens next to each other",
 ["src/lexer.rs: Lexer::tokenize_code, Lexer::next_token and all read_* functions", LB+": tokenize"])
p("C44","errors of the tokenizer are specified",
 "For every text, either it consists of tokens (as in C43) to its end, or its tokens end at a place where no token of any kind starts; the place is unique. tokenize(code) reports an error exactly in the second case (if the first token is not <), and the error is determined: one or more @ without a name after them give the message `Invalid character as an identifier.` right after the last @, everything else gives `Unexpected EOF.` at the end of the text. The text at this place starts with a quote, a back quote, @, { or /*.",
 "every text","infinitely many texts",
 ["src/lexer.rs: Lexer::tokenize_code, Lexer::next_token, Lexer::next_char and all read_* functions", LB+": tokenize"])
p("C45","the first words of a statement determine the type of its tree",
 "The node_type of the tree of each statement is the one that belongs to the words of the input from the beginning of this statement on, comments left out and in upper case: for most statements the first word decides (for example INSERT gives InsertStatement); after CREATE and ALTER the first word among the next five that names something which can be created or altered (TABLE followed by FUNCTION is a function); DROP, EXPORT and BEGIN need the second word (BEGIN at the end of the input is a transaction); queries are of one of five types; a statement after a label has its own type. The words determine the type except among the types of queries. The code takes any token after a label for the colon.",
 "every input on which parse returns Ok, every statement","every first word of every statement, with any number of words skipped, any labels and any continuation",
 [PR+": Parser::parse_code, parse_statement, parse_labeled_statement and every function that parses a statement"])
p("C46","the trees hold the whole input",
 "Write the tokens found in the returned trees into a text, each at the line and column it says, with nothing but blanks and newlines between them: parse gives the same trees for this text, with the same positions, unless a token could have been overwritten (the cases of C15). The order of the tokens is determined by their positions. Likewise the text made from the result of tokenize has the same tokens.",
 "every input on which parse (or tokenize) succeeds","infinitely many texts; every literal next to every other one",
 [LB+": parse, tokenize", "src/lexer.rs: Lexer::tokenize_code", PR+": Parser::parse_code"])
p("C47","how much work parsing takes",
 "Count the calls of the parser's functions (next_token included) while parse runs, also when it fails. For a text of n tokens there are at most 31 * (n + 1) * 2^k of them, where k is the number of opening parentheses before something that could be a query (SELECT, WITH, FROM or another opening parenthesis): without such parentheses the work is linear in the number of tokens. The factor is real: the statements SELECT 1 FROM ( q(n) ) ; with q(0) = SELECT 1 and q(n+1) = SELECT 1 FROM ( ( q(n) ) JOIN U ) have 9n + 9 tokens, are parsed successfully and take at least 2^n calls.",
 "every text that can be tokenized","infinitely many texts; a slow text is found by reasoning about retries, not by running the usual ones",
 [PR+": Parser::parse_code and every parse_* function, in particular parse_table"])
p("C48","the tree of an operator expression is the one its precedence determines",
 "Take any expression made of names, numbers, strings, parameters, TRUE, FALSE and NULL with the unary and binary operators, [NOT] IN, [NOT] LIKE, [NOT] BETWEEN, IS [NOT] [DISTINCT FROM], fields, subscripts, function calls, *, CASE, parentheses, structs, arrays and subqueries (in parentheses, where they may begin with WITH, and after IN), nested to any depth. Write it down with the parentheses that the levels of the operators demand (any more are allowed). If the tokens of a text are the words of a script of SELECT (with DISTINCT or ALL, aliases, FROM with joins, WHERE, GROUP BY, HAVING, ORDER BY with ASC and DESC, LIMIT), of SELECT statements joined by UNION and INTERSECT (grouped from the left), of INSERT, UPDATE, DELETE, TRUNCATE, CREATE TABLE AS, DROP, DECLARE, SET, ASSERT, EXECUTE IMMEDIATE, CALL, RETURN, BREAK, CONTINUE, LEAVE and ITERATE (these four with or without a label), COMMIT and ROLLBACK statements with such expressions, each followed by a semicolon, parse succeeds, and the result is exactly the tree of these expressions: every node, its type, its token and its children in their order. For each such script there is such a text: its words with any white space between them. In particular, of two binary operators around an operand the one with the smaller level takes it, and the first one if the levels are equal. ASC and DESC are children of the expression before them only if that does not end with an operand; otherwise the code makes them children of that operand. ORDER BY and LIMIT behind a query with UNION or INTERSECT are left out: the code makes them children of the last SELECT.",
 "every script, every expression of any depth, every text with these tokens","infinitely many expressions; every operator inside of every other one on each side",
 [PR+": Parser::parse_expr, parse_exprs, parse_statement, parse_select_statement and what they call", "src/parser.rs: get_precedence"])
p("C49","statements in statements: the tree of a script with blocks is determined",
 "Take any script made of the statements of C48 and of LOOP, REPEAT ... UNTIL, WHILE ... DO, BEGIN ... END, BEGIN ... EXCEPTION WHEN ERROR THEN ... END, IF ... THEN ... ELSEIF ... ELSE ... END IF, CASE ... WHEN ... THEN ... ELSE ... END CASE and FOR ... IN (query) DO ... END FOR with such statements in them, nested to any depth, LOOP, REPEAT and WHILE with or without a label before them (and then with or without one after them), with any number of statements in each body (none included) and any number of ELSEIF and WHEN branches. If the tokens of a text are the words of the script, parse succeeds, and the result is exactly the trees of these statements, in their order: every statement is in the body it was written in, conditions, branches and the words that close a block are where they belong, each ELSE belongs to its own IF or CASE, and each label belongs to its own loop. For each such script there is such a text: its words with any white space between them.",
 "every script with blocks of any depth and length, every text with these tokens","infinitely many scripts; each kind of block inside of every other one",
 [PR+": Parser::parse_code, parse_statement, parse_loop_statement, parse_repeat_statement, parse_while_statement, parse_begin_statement, parse_if_statement, parse_case_statement, parse_for_statement, parse_labeled_statement"])
import os
open(os.path.join(os.path.dirname(os.path.dirname(os.path.abspath(__file__))),'properties.jsonl'),'w').write(''.join(json.dumps(x)+'\n' for x in P))
