import Verif.Analysis.AcceptCheck
import Verif.Proofs.AcceptDerive
/-!
# C37: which scripts `parse` accepts

The grammar is in Verif.Spec.Grammar; scripts are defined in Verif.Spec.Script.
-/
set_option maxRecDepth 100000
namespace Verif.Props
open Verif.Spec

/-- C37: a text whose tokens form a script of `n` statements of the grammar is accepted: `parse` reports no
error and does not panic, and it returns one tree per statement and the EOF node. -/
theorem C37_accepts (U : Unicode) (hU : U.Lawful) (code : Str) (toks : List Token) (n : Nat)
    (ht : tokenize U code = .ok toks) (ha : WordsApart toks) (hs : IsScript n (significant toks)) :
    ∃ stmts eof, parse U code = .ok (stmts ++ [eof]) ∧ stmts.length = n := by
  obtain ⟨ns, h1, h2⟩ := GI.accept_sound GI.tables_ok hU GI.topOk GI.check_all ht ha hs
  cases hl : ns.getLast? with
  | none => simp [List.getLast?_eq_none_iff.1 hl] at h2
  | some e =>
    obtain ⟨ys, rfl⟩ := List.getLast?_eq_some_iff.1 hl
    exact ⟨ys, e, h1, by simpa using h2⟩

/-- The tokens of a text, if it has any. -/
def toksOf (s : String) : List Token :=
  match tokenize Unicode.sample s.toList with
  | .ok ts => ts
  | _ => []

theorem toksOf_eq {s : String}
    (h : (match tokenize Unicode.sample s.toList with | .ok _ => true | _ => false) = true) :
    tokenize Unicode.sample s.toList = .ok (toksOf s) := by
  unfold toksOf
  split at h
  · next ts h' => simp only [h']
  · simp at h

/-! ## Examples: a common table expression, a join, operators and a window; set operators; a definition;
a change of data; a block of statements -/

theorem script0_tokens : tokenize Unicode.sample "WITH x AS (SELECT a.k, COUNT(DISTINCT c) OVER (PARTITION BY d ORDER BY e DESC) AS n FROM t LEFT JOIN u USING (k) WHERE NOT a IN (1, 2) AND m BETWEEN 1 AND 2 + 3) SELECT * EXCEPT (n) FROM x;".toList = .ok (toksOf "WITH x AS (SELECT a.k, COUNT(DISTINCT c) OVER (PARTITION BY d ORDER BY e DESC) AS n FROM t LEFT JOIN u USING (k) WHERE NOT a IN (1, 2) AND m BETWEEN 1 AND 2 + 3) SELECT * EXCEPT (n) FROM x;") :=
  toksOf_eq (by decide +kernel)

theorem script0_step : Derives [.nt .Step]
    ["WITH".toList, "x".toList, "AS".toList, "(".toList, "SELECT".toList, "a".toList, ".".toList, "k".toList, ",".toList, "COUNT".toList, "(".toList, "DISTINCT".toList, "c".toList, ")".toList, "OVER".toList, "(".toList, "PARTITION".toList, "BY".toList, "d".toList, "ORDER".toList, "BY".toList, "e".toList, "DESC".toList, ")".toList, "AS".toList, "n".toList, "FROM".toList, "t".toList, "LEFT".toList, "JOIN".toList, "u".toList, "USING".toList, "(".toList, "k".toList, ")".toList, "WHERE".toList, "NOT".toList, "a".toList, "IN".toList, "(".toList, "1".toList, ",".toList, "2".toList, ")".toList, "AND".toList, "m".toList, "BETWEEN".toList, "1".toList, "AND".toList, "2".toList, "+".toList, "3".toList, ")".toList, "SELECT".toList, "*".toList, "EXCEPT".toList, "(".toList, "n".toList, ")".toList, "FROM".toList, "x".toList] :=
  GI.derivB_sound (n := 1000) (cs := [0, 0, 1, 0, 0, 0, 0, 1, 0, 0, 2, 1, 1, 2, 0, 1, 0, 0, 0, 0, 1, 0, 1, 0, 1, 1, 1, 0, 0, 0, 1, 1, 0, 1, 0, 0,
    2, 1, 1, 0, 0, 1, 0, 1, 0, 0, 1, 0, 0, 0, 1, 0, 1, 0, 1, 0, 1, 0, 1, 0, 1, 0, 0, 1, 0, 1, 0, 1, 0, 1, 0, 0,
    1, 1, 0, 0, 0, 1, 0, 0, 0, 0, 0, 0, 0, 0, 0, 0, 2, 3, 0, 0, 0, 0, 0, 0, 0, 1, 1, 1, 0, 1, 0, 1, 0, 0, 0, 0,
    1, 0, 0, 0, 1, 0, 1, 0, 1, 4, 0, 0, 0, 1, 0, 2, 0, 1, 0, 1, 0, 2, 0, 1, 9, 0, 1, 0, 1, 0, 1, 7, 0, 0, 2, 0,
    0, 2, 1, 0, 3, 0, 2, 0, 0, 0, 0, 0, 0, 0, 0, 0, 2, 0, 1, 0, 0, 0, 1, 2, 1, 0, 1, 0, 1, 0, 1, 0, 0, 0, 0, 0,
    0, 0, 0, 0, 0, 0, 0, 0, 0, 0, 0, 0, 0, 0, 0, 0]) (by decide +kernel)

theorem script0_sig : significant (toksOf "WITH x AS (SELECT a.k, COUNT(DISTINCT c) OVER (PARTITION BY d ORDER BY e DESC) AS n FROM t LEFT JOIN u USING (k) WHERE NOT a IN (1, 2) AND m BETWEEN 1 AND 2 + 3) SELECT * EXCEPT (n) FROM x;") =
    ["WITH".toList, "x".toList, "AS".toList, "(".toList, "SELECT".toList, "a".toList, ".".toList, "k".toList, ",".toList, "COUNT".toList, "(".toList, "DISTINCT".toList, "c".toList, ")".toList, "OVER".toList, "(".toList, "PARTITION".toList, "BY".toList, "d".toList, "ORDER".toList, "BY".toList, "e".toList, "DESC".toList, ")".toList, "AS".toList, "n".toList, "FROM".toList, "t".toList, "LEFT".toList, "JOIN".toList, "u".toList, "USING".toList, "(".toList, "k".toList, ")".toList, "WHERE".toList, "NOT".toList, "a".toList, "IN".toList, "(".toList, "1".toList, ",".toList, "2".toList, ")".toList, "AND".toList, "m".toList, "BETWEEN".toList, "1".toList, "AND".toList, "2".toList, "+".toList, "3".toList, ")".toList, "SELECT".toList, "*".toList, "EXCEPT".toList, "(".toList, "n".toList, ")".toList, "FROM".toList, "x".toList, ";".toList] := by
  decide +kernel

theorem script0_apart : WordsApart (toksOf "WITH x AS (SELECT a.k, COUNT(DISTINCT c) OVER (PARTITION BY d ORDER BY e DESC) AS n FROM t LEFT JOIN u USING (k) WHERE NOT a IN (1, 2) AND m BETWEEN 1 AND 2 + 3) SELECT * EXCEPT (n) FROM x;") := GI.apartB_sound (by decide +kernel)

/-- The hypotheses of C37 are met, so the script is accepted. -/
example : ∃ stmts eof, parse Unicode.sample "WITH x AS (SELECT a.k, COUNT(DISTINCT c) OVER (PARTITION BY d ORDER BY e DESC) AS n FROM t LEFT JOIN u USING (k) WHERE NOT a IN (1, 2) AND m BETWEEN 1 AND 2 + 3) SELECT * EXCEPT (n) FROM x;".toList = .ok (stmts ++ [eof]) ∧ stmts.length = 1 := by
  refine C37_accepts _ Unicode.sample_lawful _ _ _ script0_tokens script0_apart ?_
  rw [script0_sig]
  exact .cons script0_step .nil

theorem script1_tokens : tokenize Unicode.sample "(SELECT 'x') UNION ALL (SELECT -2.5) ORDER BY 1;".toList = .ok (toksOf "(SELECT 'x') UNION ALL (SELECT -2.5) ORDER BY 1;") :=
  toksOf_eq (by decide +kernel)

theorem script1_step : Derives [.nt .Step]
    ["(".toList, "SELECT".toList, "'x'".toList, ")".toList, "UNION".toList, "ALL".toList, "(".toList, "SELECT".toList, "-".toList, "2.5".toList, ")".toList, "ORDER".toList, "BY".toList, "1".toList] :=
  GI.derivB_sound (n := 1000) (cs := [0, 0, 1, 1, 0, 0, 2, 1, 1, 2, 1, 0, 0, 0, 0, 1, 1, 0, 1, 0, 3, 0, 0, 0, 0, 0, 2, 0, 0, 0, 0, 0, 2, 1, 1, 2,
    1, 0, 0, 0, 0, 1, 1, 0, 1, 1, 0, 2, 0, 0, 0, 0, 0, 0, 1, 0, 1, 0, 1, 0, 2, 0, 0, 0]) (by decide +kernel)

theorem script1_sig : significant (toksOf "(SELECT 'x') UNION ALL (SELECT -2.5) ORDER BY 1;") =
    ["(".toList, "SELECT".toList, "'x'".toList, ")".toList, "UNION".toList, "ALL".toList, "(".toList, "SELECT".toList, "-".toList, "2.5".toList, ")".toList, "ORDER".toList, "BY".toList, "1".toList, ";".toList] := by
  decide +kernel

theorem script1_apart : WordsApart (toksOf "(SELECT 'x') UNION ALL (SELECT -2.5) ORDER BY 1;") := GI.apartB_sound (by decide +kernel)

/-- The hypotheses of C37 are met, so the script is accepted. -/
example : ∃ stmts eof, parse Unicode.sample "(SELECT 'x') UNION ALL (SELECT -2.5) ORDER BY 1;".toList = .ok (stmts ++ [eof]) ∧ stmts.length = 1 := by
  refine C37_accepts _ Unicode.sample_lawful _ _ _ script1_tokens script1_apart ?_
  rw [script1_sig]
  exact .cons script1_step .nil

theorem script2_tokens : tokenize Unicode.sample "CREATE OR REPLACE TABLE p.d.t (a INT64 NOT NULL OPTIONS(description = 'x'), c ARRAY<STRUCT<x INT64, y STRING> >, PRIMARY KEY (a) NOT ENFORCED) PARTITION BY DATE(e) AS SELECT 1;".toList = .ok (toksOf "CREATE OR REPLACE TABLE p.d.t (a INT64 NOT NULL OPTIONS(description = 'x'), c ARRAY<STRUCT<x INT64, y STRING> >, PRIMARY KEY (a) NOT ENFORCED) PARTITION BY DATE(e) AS SELECT 1;") :=
  toksOf_eq (by decide +kernel)

theorem script2_step : Derives [.nt .Step]
    ["CREATE".toList, "OR".toList, "REPLACE".toList, "TABLE".toList, "p".toList, ".".toList, "d".toList, ".".toList, "t".toList, "(".toList, "a".toList, "INT64".toList, "NOT".toList, "NULL".toList, "OPTIONS".toList, "(".toList, "description".toList, "=".toList, "'x'".toList, ")".toList, ",".toList, "c".toList, "ARRAY".toList, "<".toList, "STRUCT".toList, "<".toList, "x".toList, "INT64".toList, ",".toList, "y".toList, "STRING".toList, ">".toList, ">".toList, ",".toList, "PRIMARY".toList, "KEY".toList, "(".toList, "a".toList, ")".toList, "NOT".toList, "ENFORCED".toList, ")".toList, "PARTITION".toList, "BY".toList, "DATE".toList, "(".toList, "e".toList, ")".toList, "AS".toList, "SELECT".toList, "1".toList] :=
  GI.derivB_sound (n := 1000) (cs := [0, 0, 9, 0, 1, 0, 0, 0, 0, 1, 1, 0, 0, 1, 1, 0, 0, 0, 0, 0, 2, 1, 1, 1, 1, 0, 1, 0, 1, 0, 1, 1, 0, 0, 3, 0,
    0, 0, 3, 5, 0, 0, 0, 0, 0, 0, 1, 0, 0, 0, 0, 0, 0, 0, 0, 0, 0, 2, 0, 1, 0, 1, 1, 1, 0, 1, 0, 1, 0, 1, 0, 0,
    1, 0, 0, 1, 0, 1, 0, 1, 0, 0, 2, 0, 1, 0, 0, 1, 0, 1, 0, 0, 1, 0, 0, 0, 0, 0, 0, 0, 0, 0, 1, 0, 0, 1, 2, 1,
    0, 0, 0, 0, 1, 1, 0, 1, 0, 2, 0, 0, 0, 0, 0]) (by decide +kernel)

theorem script2_sig : significant (toksOf "CREATE OR REPLACE TABLE p.d.t (a INT64 NOT NULL OPTIONS(description = 'x'), c ARRAY<STRUCT<x INT64, y STRING> >, PRIMARY KEY (a) NOT ENFORCED) PARTITION BY DATE(e) AS SELECT 1;") =
    ["CREATE".toList, "OR".toList, "REPLACE".toList, "TABLE".toList, "p".toList, ".".toList, "d".toList, ".".toList, "t".toList, "(".toList, "a".toList, "INT64".toList, "NOT".toList, "NULL".toList, "OPTIONS".toList, "(".toList, "description".toList, "=".toList, "'x'".toList, ")".toList, ",".toList, "c".toList, "ARRAY".toList, "<".toList, "STRUCT".toList, "<".toList, "x".toList, "INT64".toList, ",".toList, "y".toList, "STRING".toList, ">".toList, ">".toList, ",".toList, "PRIMARY".toList, "KEY".toList, "(".toList, "a".toList, ")".toList, "NOT".toList, "ENFORCED".toList, ")".toList, "PARTITION".toList, "BY".toList, "DATE".toList, "(".toList, "e".toList, ")".toList, "AS".toList, "SELECT".toList, "1".toList, ";".toList] := by
  decide +kernel

theorem script2_apart : WordsApart (toksOf "CREATE OR REPLACE TABLE p.d.t (a INT64 NOT NULL OPTIONS(description = 'x'), c ARRAY<STRUCT<x INT64, y STRING> >, PRIMARY KEY (a) NOT ENFORCED) PARTITION BY DATE(e) AS SELECT 1;") := GI.apartB_sound (by decide +kernel)

/-- The hypotheses of C37 are met, so the script is accepted. -/
example : ∃ stmts eof, parse Unicode.sample "CREATE OR REPLACE TABLE p.d.t (a INT64 NOT NULL OPTIONS(description = 'x'), c ARRAY<STRUCT<x INT64, y STRING> >, PRIMARY KEY (a) NOT ENFORCED) PARTITION BY DATE(e) AS SELECT 1;".toList = .ok (stmts ++ [eof]) ∧ stmts.length = 1 := by
  refine C37_accepts _ Unicode.sample_lawful _ _ _ script2_tokens script2_apart ?_
  rw [script2_sig]
  exact .cons script2_step .nil

theorem script3_tokens : tokenize Unicode.sample "MERGE INTO t USING (SELECT 1 AS k) s ON t.k = s.k WHEN MATCHED THEN UPDATE SET a = DEFAULT WHEN NOT MATCHED BY TARGET THEN INSERT (a) VALUES (1);".toList = .ok (toksOf "MERGE INTO t USING (SELECT 1 AS k) s ON t.k = s.k WHEN MATCHED THEN UPDATE SET a = DEFAULT WHEN NOT MATCHED BY TARGET THEN INSERT (a) VALUES (1);") :=
  toksOf_eq (by decide +kernel)

theorem script3_step : Derives [.nt .Step]
    ["MERGE".toList, "INTO".toList, "t".toList, "USING".toList, "(".toList, "SELECT".toList, "1".toList, "AS".toList, "k".toList, ")".toList, "s".toList, "ON".toList, "t".toList, ".".toList, "k".toList, "=".toList, "s".toList, ".".toList, "k".toList, "WHEN".toList, "MATCHED".toList, "THEN".toList, "UPDATE".toList, "SET".toList, "a".toList, "=".toList, "DEFAULT".toList, "WHEN".toList, "NOT".toList, "MATCHED".toList, "BY".toList, "TARGET".toList, "THEN".toList, "INSERT".toList, "(".toList, "a".toList, ")".toList, "VALUES".toList, "(".toList, "1".toList, ")".toList] :=
  GI.derivB_sound (n := 1000) (cs := [0, 0, 6, 0, 1, 0, 0, 0, 1, 1, 1, 2, 1, 0, 0, 0, 0, 1, 1, 0, 1, 0, 2, 0, 1, 0, 0, 0, 0, 1, 1, 0, 1, 0, 1, 1,
    1, 0, 1, 1, 0, 0, 1, 1, 1, 0, 0, 1, 0, 0, 0, 0, 1, 1, 1, 0, 0, 0, 1, 1, 0, 0, 3, 1, 0, 1, 0, 1, 0, 0, 1, 0,
    1, 0, 0, 1, 0, 2, 0]) (by decide +kernel)

theorem script3_sig : significant (toksOf "MERGE INTO t USING (SELECT 1 AS k) s ON t.k = s.k WHEN MATCHED THEN UPDATE SET a = DEFAULT WHEN NOT MATCHED BY TARGET THEN INSERT (a) VALUES (1);") =
    ["MERGE".toList, "INTO".toList, "t".toList, "USING".toList, "(".toList, "SELECT".toList, "1".toList, "AS".toList, "k".toList, ")".toList, "s".toList, "ON".toList, "t".toList, ".".toList, "k".toList, "=".toList, "s".toList, ".".toList, "k".toList, "WHEN".toList, "MATCHED".toList, "THEN".toList, "UPDATE".toList, "SET".toList, "a".toList, "=".toList, "DEFAULT".toList, "WHEN".toList, "NOT".toList, "MATCHED".toList, "BY".toList, "TARGET".toList, "THEN".toList, "INSERT".toList, "(".toList, "a".toList, ")".toList, "VALUES".toList, "(".toList, "1".toList, ")".toList, ";".toList] := by
  decide +kernel

theorem script3_apart : WordsApart (toksOf "MERGE INTO t USING (SELECT 1 AS k) s ON t.k = s.k WHEN MATCHED THEN UPDATE SET a = DEFAULT WHEN NOT MATCHED BY TARGET THEN INSERT (a) VALUES (1);") := GI.apartB_sound (by decide +kernel)

/-- The hypotheses of C37 are met, so the script is accepted. -/
example : ∃ stmts eof, parse Unicode.sample "MERGE INTO t USING (SELECT 1 AS k) s ON t.k = s.k WHEN MATCHED THEN UPDATE SET a = DEFAULT WHEN NOT MATCHED BY TARGET THEN INSERT (a) VALUES (1);".toList = .ok (stmts ++ [eof]) ∧ stmts.length = 1 := by
  refine C37_accepts _ Unicode.sample_lawful _ _ _ script3_tokens script3_apart ?_
  rw [script3_sig]
  exact .cons script3_step .nil

theorem script4_tokens : tokenize Unicode.sample "BEGIN DECLARE x INT64 DEFAULT 0; WHILE x < 3 DO SET x = x + 1; IF x = 2 THEN BREAK; ELSE CONTINUE; END IF; END WHILE; EXCEPTION WHEN ERROR THEN RAISE; END;".toList = .ok (toksOf "BEGIN DECLARE x INT64 DEFAULT 0; WHILE x < 3 DO SET x = x + 1; IF x = 2 THEN BREAK; ELSE CONTINUE; END IF; END WHILE; EXCEPTION WHEN ERROR THEN RAISE; END;") :=
  toksOf_eq (by decide +kernel)

theorem script4_step : Derives [.nt .Step]
    ["BEGIN".toList, "DECLARE".toList, "x".toList, "INT64".toList, "DEFAULT".toList, "0".toList, ";".toList, "WHILE".toList, "x".toList, "<".toList, "3".toList, "DO".toList, "SET".toList, "x".toList, "=".toList, "x".toList, "+".toList, "1".toList, ";".toList, "IF".toList, "x".toList, "=".toList, "2".toList, "THEN".toList, "BREAK".toList, ";".toList, "ELSE".toList, "CONTINUE".toList, ";".toList, "END".toList, "IF".toList, ";".toList, "END".toList, "WHILE".toList, ";".toList, "EXCEPTION".toList, "WHEN".toList, "ERROR".toList, "THEN".toList, "RAISE".toList, ";".toList, "END".toList] :=
  GI.derivB_sound (n := 1000) (cs := [0, 0, 30, 0, 0, 1, 0, 0, 27, 0, 1, 0, 1, 0, 0, 1, 0, 2, 0, 1, 0, 0, 35, 0, 0, 1, 0, 1, 0, 1, 1, 1, 0, 2, 0,
    1, 0, 0, 28, 0, 0, 1, 0, 1, 0, 1, 1, 0, 0, 1, 0, 1, 0, 3, 0, 2, 0, 1, 0, 0, 31, 0, 0, 1, 0, 1, 0, 1, 1, 0, 0,
    2, 0, 1, 1, 0, 0, 0, 0, 0, 1, 0, 1, 1, 0, 2, 0, 0, 0, 0, 1, 0, 1, 0, 0, 38, 0, 0, 0]) (by decide +kernel)

theorem script4_sig : significant (toksOf "BEGIN DECLARE x INT64 DEFAULT 0; WHILE x < 3 DO SET x = x + 1; IF x = 2 THEN BREAK; ELSE CONTINUE; END IF; END WHILE; EXCEPTION WHEN ERROR THEN RAISE; END;") =
    ["BEGIN".toList, "DECLARE".toList, "x".toList, "INT64".toList, "DEFAULT".toList, "0".toList, ";".toList, "WHILE".toList, "x".toList, "<".toList, "3".toList, "DO".toList, "SET".toList, "x".toList, "=".toList, "x".toList, "+".toList, "1".toList, ";".toList, "IF".toList, "x".toList, "=".toList, "2".toList, "THEN".toList, "BREAK".toList, ";".toList, "ELSE".toList, "CONTINUE".toList, ";".toList, "END".toList, "IF".toList, ";".toList, "END".toList, "WHILE".toList, ";".toList, "EXCEPTION".toList, "WHEN".toList, "ERROR".toList, "THEN".toList, "RAISE".toList, ";".toList, "END".toList, ";".toList] := by
  decide +kernel

theorem script4_apart : WordsApart (toksOf "BEGIN DECLARE x INT64 DEFAULT 0; WHILE x < 3 DO SET x = x + 1; IF x = 2 THEN BREAK; ELSE CONTINUE; END IF; END WHILE; EXCEPTION WHEN ERROR THEN RAISE; END;") := GI.apartB_sound (by decide +kernel)

/-- The hypotheses of C37 are met, so the script is accepted. -/
example : ∃ stmts eof, parse Unicode.sample "BEGIN DECLARE x INT64 DEFAULT 0; WHILE x < 3 DO SET x = x + 1; IF x = 2 THEN BREAK; ELSE CONTINUE; END IF; END WHILE; EXCEPTION WHEN ERROR THEN RAISE; END;".toList = .ok (stmts ++ [eof]) ∧ stmts.length = 1 := by
  refine C37_accepts _ Unicode.sample_lawful _ _ _ script4_tokens script4_apart ?_
  rw [script4_sig]
  exact .cons script4_step .nil

theorem script5_tokens : tokenize Unicode.sample "FROM data.view AS format |> WHERE key > 1 |> AGGREGATE SUM(n) AS total GROUP BY first |> ORDER BY total DESC;".toList = .ok (toksOf "FROM data.view AS format |> WHERE key > 1 |> AGGREGATE SUM(n) AS total GROUP BY first |> ORDER BY total DESC;") :=
  toksOf_eq (by decide +kernel)

theorem script5_step : Derives [.nt .Step]
    ["FROM".toList, "data".toList, ".".toList, "view".toList, "AS".toList, "format".toList, "|>".toList, "WHERE".toList, "key".toList, ">".toList, "1".toList, "|>".toList, "AGGREGATE".toList, "SUM".toList, "(".toList, "n".toList, ")".toList, "AS".toList, "total".toList, "GROUP".toList, "BY".toList, "first".toList, "|>".toList, "ORDER".toList, "BY".toList, "total".toList, "DESC".toList] :=
  GI.derivB_sound (n := 1000) (cs := [0, 0, 0, 1, 0, 0, 0, 0, 1, 0, 1, 0, 0, 0, 0, 0, 1, 0, 5, 1, 0, 1, 0, 1, 0, 1, 1, 2, 0, 2, 0, 0, 1, 3, 1, 0,
    1, 0, 0, 2, 0, 1, 0, 0, 1, 0, 1, 0, 0, 1, 0, 0, 0, 0, 0, 0, 1, 0, 1, 0, 0, 1, 0, 1, 0, 1, 0, 0, 0, 2, 1, 1,
    0, 1, 0, 1, 0, 0, 1, 1]) (by decide +kernel)

theorem script5_sig : significant (toksOf "FROM data.view AS format |> WHERE key > 1 |> AGGREGATE SUM(n) AS total GROUP BY first |> ORDER BY total DESC;") =
    ["FROM".toList, "data".toList, ".".toList, "view".toList, "AS".toList, "format".toList, "|>".toList, "WHERE".toList, "key".toList, ">".toList, "1".toList, "|>".toList, "AGGREGATE".toList, "SUM".toList, "(".toList, "n".toList, ")".toList, "AS".toList, "total".toList, "GROUP".toList, "BY".toList, "first".toList, "|>".toList, "ORDER".toList, "BY".toList, "total".toList, "DESC".toList, ";".toList] := by
  decide +kernel

theorem script5_apart : WordsApart (toksOf "FROM data.view AS format |> WHERE key > 1 |> AGGREGATE SUM(n) AS total GROUP BY first |> ORDER BY total DESC;") := GI.apartB_sound (by decide +kernel)

/-- The hypotheses of C37 are met, so the script is accepted. -/
example : ∃ stmts eof, parse Unicode.sample "FROM data.view AS format |> WHERE key > 1 |> AGGREGATE SUM(n) AS total GROUP BY first |> ORDER BY total DESC;".toList = .ok (stmts ++ [eof]) ∧ stmts.length = 1 := by
  refine C37_accepts _ Unicode.sample_lawful _ _ _ script5_tokens script5_apart ?_
  rw [script5_sig]
  exact .cons script5_step .nil

theorem script6_tokens : tokenize Unicode.sample "SELECT * FROM t PIVOT(SUM(x) FOR q IN ('a', 'b')) JOIN (FROM u |> DROP n) AS s USING (k);".toList = .ok (toksOf "SELECT * FROM t PIVOT(SUM(x) FOR q IN ('a', 'b')) JOIN (FROM u |> DROP n) AS s USING (k);") :=
  toksOf_eq (by decide +kernel)

theorem script6_step : Derives [.nt .Step]
    ["SELECT".toList, "*".toList, "FROM".toList, "t".toList, "PIVOT".toList, "(".toList, "SUM".toList, "(".toList, "x".toList, ")".toList, "FOR".toList, "q".toList, "IN".toList, "(".toList, "'a'".toList, ",".toList, "'b'".toList, ")".toList, ")".toList, "JOIN".toList, "(".toList, "FROM".toList, "u".toList, "|>".toList, "DROP".toList, "n".toList, ")".toList, "AS".toList, "s".toList, "USING".toList, "(".toList, "k".toList, ")".toList] :=
  GI.derivB_sound (n := 1000) (cs := [0, 0, 1, 0, 1, 2, 0, 1, 0, 0, 0, 1, 2, 0, 0, 0, 0, 0, 0, 0, 0, 1, 0, 0, 0, 1, 0, 1, 0, 0, 2, 0, 1, 0, 0, 1,
    0, 1, 0, 0, 1, 0, 0, 0, 0, 0, 0, 0, 0, 0, 0, 1, 0, 3, 0, 0, 1, 0, 1, 0, 3, 0, 0, 0, 0, 2, 0, 1, 0, 0, 0, 0,
    0, 0, 0, 0, 0, 0, 0, 2, 0, 2, 1, 0, 1, 0, 1, 0, 0, 0, 1, 0, 0, 0, 1, 1, 1, 0, 1, 0, 1, 0, 0, 0, 0, 0, 0, 0,
    0, 0, 0, 0, 0]) (by decide +kernel)

theorem script6_sig : significant (toksOf "SELECT * FROM t PIVOT(SUM(x) FOR q IN ('a', 'b')) JOIN (FROM u |> DROP n) AS s USING (k);") =
    ["SELECT".toList, "*".toList, "FROM".toList, "t".toList, "PIVOT".toList, "(".toList, "SUM".toList, "(".toList, "x".toList, ")".toList, "FOR".toList, "q".toList, "IN".toList, "(".toList, "'a'".toList, ",".toList, "'b'".toList, ")".toList, ")".toList, "JOIN".toList, "(".toList, "FROM".toList, "u".toList, "|>".toList, "DROP".toList, "n".toList, ")".toList, "AS".toList, "s".toList, "USING".toList, "(".toList, "k".toList, ")".toList, ";".toList] := by
  decide +kernel

theorem script6_apart : WordsApart (toksOf "SELECT * FROM t PIVOT(SUM(x) FOR q IN ('a', 'b')) JOIN (FROM u |> DROP n) AS s USING (k);") := GI.apartB_sound (by decide +kernel)

/-- The hypotheses of C37 are met, so the script is accepted. -/
example : ∃ stmts eof, parse Unicode.sample "SELECT * FROM t PIVOT(SUM(x) FOR q IN ('a', 'b')) JOIN (FROM u |> DROP n) AS s USING (k);".toList = .ok (stmts ++ [eof]) ∧ stmts.length = 1 := by
  refine C37_accepts _ Unicode.sample_lawful _ _ _ script6_tokens script6_apart ?_
  rw [script6_sig]
  exact .cons script6_step .nil

/-- Does `parse` report an error? -/
def rejects (s : String) : Bool :=
  match parse Unicode.sample s.toList with
  | .err _ => true
  | _ => false

/-- Statements of GoogleSQL outside the grammar which `parse` rejects: `EXCEPT` after `*` without `FROM`,
`ORDER BY` after a parenthesised operand of a query that does not begin with one, `NOT NULL` after `DEFAULT`,
a set operation of parenthesised queries as an expression, options of a clone, dropping a snapshot, `FULL UNION`
after a table, a query without SELECT after `IN`, a last pipe `WITH`, a statement after pipes that follow a
subquery, and `INSERT` of a parenthesised query. -/
theorem C37_rejected :
    rejects "SELECT * EXCEPT DISTINCT SELECT 2" ∧
    rejects "SELECT 1 UNION ALL (SELECT 2) ORDER BY 1" ∧
    rejects "CREATE TABLE t (a INT64 DEFAULT 1 NOT NULL)" ∧
    rejects "SELECT ((SELECT 1) UNION ALL (SELECT 2))" ∧
    rejects "CREATE SNAPSHOT TABLE a CLONE c OPTIONS (x = 1)" ∧
    rejects "DROP SNAPSHOT TABLE a" ∧
    rejects "SELECT 1 FROM t FULL UNION ALL BY NAME SELECT 2" ∧
    rejects "SELECT a IN (FROM t)" ∧
    rejects "FROM t |> WITH x AS (SELECT 1)" ∧
    rejects "SELECT a FROM (SELECT 1) |> WHERE b; DELETE t WHERE c" ∧
    rejects "INSERT INTO t (SELECT 1)" := by
  refine ⟨?_, ?_, ?_, ?_, ?_, ?_, ?_, ?_, ?_, ?_, ?_⟩ <;> decide +kernel

end Verif.Props
