# Formal model of kitta65/bq2cst in Lean 4 — design

## Shape of the model

1. **Hand-written part** (`Verif/Model/{Basic,Token,Lexer,Cst,Core,Lib,Display}.lean`): `lexer.rs`,
   `token.rs`, `error.rs`, `cst.rs`, `lib.rs` and the core of `parser.rs` (`new`, `parse_code`,
   `construct_node`, `get_precedence`, `get_offset_index`, `get_token`, `is_eof`, `next_token`) as total,
   computable Lean functions on `List Char`, `List Token` and a tree type.  Panics are explicit outcomes
   (`Out.panic`), errors are explicit outcomes carrying line, column and the place the message is built (`Model/Message.lean` gives the text).
2. **Deep embedding of all `parse_*` functions** (`Verif/Model/{Names,Program}.lean`, generated by
   `tools/translate.py` from `/repo/src/parser.rs`; anything outside the known shapes makes the translator
   fail, so nothing is skipped silently): a small imperative command language (`Cmd`, `Exp`, `Cond` in
   `Model/Syntax.lean`) whose constructs are the primitive steps of the Rust code, and an interpreter
   (`Model/Interp.lean`).  Loops and recursion are bounded by explicit fuel; running out is the outcome
   `timeout`, which is *proved* unreachable (C04, C12), so no theorem is about cut-off runs.
3. **Specifications** (`Verif/Spec/*.lean`): the vocabulary in which the properties are stated, without
   reference to the way the code works: positions, interleavings, tokens and nodes of a tree, the
   declarations of `types.rs` (`Spec/Schema.lean`, generated by `tools/schema.py`), the precedence table of
   GoogleSQL (`Spec/Precedence.lean`), the order of the parts of each node (`Spec/SourceOrder.lean`), rendering
   rules.
4. **Properties** (`Verif/Props/*.lean`): the theorems `Cnn_...`, each with examples that evaluate the model
   on concrete inputs to show that its hypotheses can be met.
5. **Proofs** (`Verif/Proofs/*.lean`) and **analyses** (`Verif/Analysis/*.lean`): lemmas.  For facts about
   all runs of the 100-odd mutually recursive `parse_*` functions there are abstract interpreters (a program
   that computes, for each function, what holds of its result under given facts about the next tokens),
   proved sound against the interpreter for every token list, recursion depth and number of iterations.  The
   kernel evaluates them once on the whole program (`decide +kernel` on a closed Boolean, no sampling), and
   the soundness theorem turns this into a statement about all inputs.

## Trusted base

* Lean's kernel (4.33.0), and the axioms `propext`, `Classical.choice`, `Quot.sound`.  No theorem depends on
  any other axiom; there is no `sorry`, `native_decide`, `bv_decide`, `implemented_by` or `unsafe`.
* That the model is a faithful reading of the source.  The hand-written part cites file and lines at each
  definition.  For the generated part one trusts `tools/rustparse.py` + `tools/translate.py`.  As a check,
  `tools/validate.py` extracts all parser test cases of `/repo/src/parser/tests` (input, expected rendering of
  the tree, expected error position) and runs the model on them: all agree.  This check is evidence, not part
  of any proof.
* For C21/C34/C35: that `tools/schema.py` reads the TypeScript declarations in `types.rs` correctly.
* Two Unicode tables are parameters of the model (`Unicode.isAlphabetic`, `Unicode.toUpper`).  Theorems that
  need something about them take `U.Lawful` as a hypothesis (`Model/Basic.lean`): on ASCII they are the
  usual functions, no alphabetic character is white space, upper-casing gives no empty string, and an ASCII
  character that is not a capital letter is the upper case of itself only.  All are true of Unicode; the
  hypothesis is satisfiable (`Unicode.sample` is proved lawful in `Proofs/Sample.lean`).

### Modelled

`lexer.rs`, `token.rs`, `constants.rs`, `cst.rs` (including `Display`), `error.rs` (positions and texts of
messages), `lib.rs` (`parse`, `tokenize` with the conversion to JavaScript values), all of `parser.rs`,
`types.rs` (as data).

### Not modelled

* `wasm-bindgen` and `utils::set_panic_hook`: the calling convention and the conversion of a panic to a trap.
* The code of `serde` and `serde_wasm_bindgen`, which is not in the repository.  `Model/Serialize.lean` models what
  the derived implementations do by the documentation of serde: JavaScript values, the iteration order of hash
  maps being arbitrary (C39).
* The escaping of characters by `Debug` of `str`, used when a message shows a token: a parameter `esc`.
* Exhaustion of memory or of the machine stack.  C12 bounds the depth of recursion by four calls per token.
* Arithmetic overflow: `usize` is unbounded in the model, except that `usize::MAX` is 2^32-1 (wasm32) where
  the code uses it as a value.  Inputs of 2^32 characters do not fit into wasm32 memory.
* Moves and borrows: a moved variable keeps its value in the model.  The analyses check that it is not used
  again; Rust's borrow checker does so for the source.

### Simplifications

* `HashMap<String, ContentType>` is an association list with unique keys (C31); the code only iterates over
  it after sorting, or to ask whether some key is present.
* `Node::format` uses a sort of the keys; the model uses insertion sort on the same order.
* The `regex` of `is_numeric` is matched by a hand-written matcher, proved equivalent to a declarative reading
  of the regular expression (C28).
* `while let Some(x) = v.pop()` is a loop over the reversed vector (the body never touches the vector).
* The one place where the parser catches an error (`parser.rs` 1246-1266, `tryElse`) restores the whole
  parser state; in the model the state before the call is used again.

## Properties

`N` marks a property that is false of the code without an exception; the exception is part of the statement
and its necessity is proved by witnesses.

| id | modelled | how it is proved |
|----|----------|------------------|
| C01 lossless tokenize | lexer | induction on lexer steps: every step consumes white space, then the literal |
| C02 positions | lexer | invariant: line and column are the position of the consumed prefix |
| C03 EOF sentinel | lexer | every token but the last has a non-empty literal |
| C04 termination of tokenize | lexer as fuelled loop | fuel `length + 1` is never exhausted |
| C05 tokenizer panics | lexer with panics | case analysis on the first token, both directions |
| C06 tokenizer errors | lexer | invariant on error outcomes |
| C07 strings | `read_string`, `read_multiline_string` | induction; extent, and acceptance of every closed string |
| C08 comments | `read_comment`, `read_multiline_comment` | induction |
| C09 white space | lexer | simulation between two runs |
| C10 splitting of `>` | bracket counter | invariant relating the counter to the tokens read so far |
| C11 compositionality | lexer | simulation between runs on `a`, `b` and `a ++ w ++ b` |
| C12 parse terminates | parser | measure (remaining tokens, rank of the function), checked statically for all call sites |
| C13 EOF node | parser | abstract interpreter: type and presence of the token of each result |
| C14 no invention or duplication | parser | abstract interpreter: each result accounts for an interval of tokens |
| C15 losslessness, N | parser | the same, with the overwritten children tracked; witnesses by evaluation |
| C16 comment attachment | parser | the same, with the comments of each node |
| C17 panics, N | parser | the same; panics are outcomes it has to exclude |
| C18 letter case | parser, lexer | relational theorem on the interpreter (two runs in lock step); the lexer commutes with upper-casing |
| C19 comments ignored, N | parser, lexer | relational theorem, comments erased from positions and trees; for texts, induction on the tokens; counterexample by evaluation |
| C20 layout ignored | parser, lexer | relational theorem, positions replaced; for texts, reading a token depends on the text behind it only through one character that is not white space |
| C21 declared children, N | parser + `types.rs` | abstract interpreter: keys present in each node; witness for each of 280 exceptions |
| C22 precedence, N | parser | second abstract interpreter: bounds on the open operators at both ends of each result |
| C23 error positions | parser | induction on the interpreter |
| C24 statement slices | parser | intervals of C14 |
| C25 separators | parser | abstract interpreter: which tokens a node can have |
| C26 literals | parser | the same |
| C27 identifiers | `token.rs` | direct, both directions |
| C28 numbers | lexer, `is_numeric` | induction; equivalence with the regular expression |
| C29 tokenizer failures reach parse | `lib.rs` | direct |
| C30 comment-only input | parser core | direct |
| C31 unique keys | `cst.rs`, interpreter | invariant of insertion, through the interpreter |
| C32 Display | `cst.rs` | induction on trees |
| C33 tokens of nodes | parser | abstract interpreter: which tokens a node can have |
| C34 mandatory children, N | parser + `types.rs` | abstract interpreter; witness for each of 47 exceptions |
| C35 types of children, N | parser + `types.rs` | abstract interpreter; witness for each of 26 exceptions |
| C36 source order, N | parser | third abstract interpreter: the parts of each node as segments of the consumed tokens |
| C37 acceptance | lexer, parser | a grammar as specification; fourth abstract interpreter: follows the function bodies on all token sequences of the grammar, summaries per function checked by the kernel |
| C38 roles of children | parser | the abstract interpreter of C21/C33–C35 with a finer table: types, tokens and absent children of children per type (and token) of the parent, and for children of certain types the children they have and their tokens; the table is inferred by `tools/GenTable.lean.txt`, stated in `Spec/Roles.lean` and checked by the kernel |
| C39 JavaScript values | serializer | structural induction; conformance lifts C21, C33–C35 to the values |
| C40 error messages | parser, messages | an analysis of the facts (words a nearby token is or is not) known at each error site, proved sound for all runs and evaluated by the kernel on the whole program |
| C41 independent statements | parser | the analysis of C37 with an unknown rest that must not be looked at; a strict variant of the interpreter that fails when it looks beyond the semicolon, and a simulation of it by the parser on any longer token list; then a shift of positions |
| C42 concatenation | lexer, parser | C11, C20 and C41 |
| C43 tokens specified | lexer | each reader accepts exactly the literals of its kind (both directions); induction on the text |
| C44 errors specified | lexer | the reader fails exactly where no literal of any kind starts; induction on the text |
| C45 kinds of statements | parser | the tests of the first words in `parse_statement` are decided for each keyword (`Analysis/Kind.lean`), the types of the results of the called functions follow from a flow analysis of their bodies; induction on the call depth for labels |
| C46 trees hold the input | lexer, parser | the rendered text is a respacing (C20) of the input with the same positions, hence has the same tokens; tokens of the trees by C15, their order by C02 |
| C47 work | parser | `Model/Work.lean` counts calls; an analysis of each function body gives the calls per consumed token, with the two attempts of `parse_table` paid for by a factor of two per parenthesis; lower bound: an evaluator of the parser on a text with a gap (`Analysis/Slow.lean`), proved right for every filling of the gap, and induction on the levels |
| C48 trees of expressions | parser | `Spec/Expr.lean` is a table of the shapes of expressions and of statements, with their levels and their nodes; a symbolic evaluator of the parser on a text with gaps (`Analysis/Sym.lean`), proved right for every filling of the gaps (`Proofs/Sym.lean`), gives the node of each shape; mutual induction on expressions and lists; the loops of `parse_expr` and `parse_exprs` by induction on the operators to the right and on the elements |
| C49 trees of blocks | parser | `Spec/Block.lean` says how blocks are written and what their trees are; the evaluator of C48 on each piece of a block between two bodies (`Analysis/BlockCheck.lean`), the loops over statements, `ELSEIF` and `WHEN` branches by induction (`Proofs/BlockBase.lean`, `BlockCase.lean`, `BlockFor.lean`), labels by the steps of `parse_labeled_statement` (`BlockLabel.lean`), and mutual induction on blocks, lists of blocks and branches (`Proofs/Block.lean`) |

The grammar of C37 (`tools/grammar.bnf`) covers queries, FROM queries and pipes, PIVOT, UNPIVOT and
MATCH_RECOGNIZE, expressions, and all kinds of statements (data definition, data manipulation, procedural
language, LOAD and EXPORT). About 100 keywords of the parser (`soft` in the grammar) may be used as names of
columns, tables and functions. Left out so far: labelled statements, quantifiers `{m,n}` of patterns, and keywords
as implicit aliases.

## What the proofs found

* `tokenize` panics on input whose first token is a lone `<` (C05).
* `parse` panics when an identifier is missing at the end of the input: `TRUNCATE TABLE`, `DROP TABLE`,
  `CREATE VIEW v AS REPLICA ;` (C17).
* Tokens get lost: the first of two semicolons after `MERGE` or a labelled `FROM`/pipe statement, one of two
  `NOT ENFORCED` clauses of a column (C15).
* 353 combinations of node type and key deviate from the exported TypeScript declarations (C21, C34, C35).
* `-a.b` is parsed as `(-a).b`, `a IN (1) * 2` as `(a IN (1)) * 2`, `a OR b ASC + c` as `(a OR b ASC) + c` (C22).
* Many errors at the end of the input carry the position `usize::MAX, usize::MAX` of the EOF token (C23).
* Upper-casing makes `ſELECT` (with U+017F) a keyword.
* Malformed input such as `SELECT )` is accepted; so are `FROM a ASC AS b` and a semicolon in the middle of a
  `MERGE` statement (C36).
* Statements of GoogleSQL are rejected: `SELECT * EXCEPT DISTINCT SELECT 2`,
  `SELECT 1 UNION ALL (SELECT 2) ORDER BY 1`, `CREATE TABLE t (a INT64 DEFAULT 1 NOT NULL)`,
  `SELECT ((SELECT 1) UNION ALL (SELECT 2))`, `CREATE SNAPSHOT TABLE a CLONE c OPTIONS (x = 1)` (`OPTIONS` is
  taken for an alias), `DROP SNAPSHOT TABLE a`, `SELECT 1 FROM t FULL UNION ALL BY NAME SELECT 2` (`FULL` is taken
  for a join), `SELECT a IN (FROM t)`, `FROM t |> WITH x AS (SELECT 1)`, `INSERT INTO t (SELECT 1)`, and
  `SELECT a FROM (SELECT 1) |> WHERE b; DELETE t WHERE c` (the subquery takes the pipe and the semicolon) (C37).
* Columns named `model` or `table` are misread: `SELECT model FROM t` becomes a select without FROM whose item is
  the unary operator `model` with operand `FROM` and alias `t`.
* `SELECT 1 UNION ALL (SELECT 2) |> WHERE x` applies the pipe to the right operand only.
* The messages at `parser.rs` 789 (``Expected `LIKE`, `BETWEEN` or `IN` ``) and 799 (`Something went wrong.`) can never
  occur; the first would blame the wrong token (C40).
* Parsing takes exponential time on valid statements: `parse_table` first tries to read `((SELECT …) JOIN u)` as a
  query, fails at `JOIN`, and starts again, at every level (`C47_exponential`).
* A direction of sorting belongs to the last operand: in `ORDER BY a.c DESC` the node of `DESC` is a child of `c`, not of `a.c`,
  because `parse_expr` looks for `ASC` and `DESC` also when it is called for an operand (`C48_direction_of_operand`).
* `ORDER BY` and `LIMIT` behind `SELECT a UNION ALL SELECT c` are children of the right operand, not of the set operator
  (`C48_order_of_last_query`).
* `-a.b` is read as `(-a).b`: a sign binds tighter than the dot (the levels in `Spec/Expr.lean`; `Props/Expr.lean` has it in its
  example). All binary operators of the same level group to the left, comparisons and `=>` too.
* The token between a label and its statement is not looked at: `a b SELECT 1;` is accepted with `b` as the colon (C45).
* `SELECT (1;` is accepted with the semicolon as its closing parenthesis, and `SELECT (1; + 2` as one statement;
  `INSERT INTO t (a) SELECT 1 |> WHERE x;;` swallows the second semicolon, which is an error elsewhere (C41).
* A comment between `ARRAY` or `STRUCT` and `<` hides the bracket from the lexer: `ARRAY/*c*/<STRUCT/*c*/<x INT64>>[]`
  is rejected, without the comments it is accepted (`C19_comment_before_bracket`).

## Testing the theorems

`tools/mutate.py` applies an edit to a scratch copy of the model, rebuilds and reports what fails; the results
are in `seeded/LOG.jsonl`.
