WITH x AS (SELECT a.k, COUNT(DISTINCT c) OVER (PARTITION BY d ORDER BY e DESC) AS n FROM t LEFT JOIN u USING (k) WHERE NOT a IN (1, 2) AND m BETWEEN 1 AND 2 + 3) SELECT * EXCEPT (n) FROM x
(SELECT 'x') UNION ALL (SELECT -2.5) ORDER BY 1
CREATE OR REPLACE TABLE p.d.t (a INT64 NOT NULL OPTIONS(description = 'x'), c ARRAY<STRUCT<x INT64, y STRING> >, PRIMARY KEY (a) NOT ENFORCED) PARTITION BY DATE(e) AS SELECT 1
MERGE INTO t USING (SELECT 1 AS k) s ON t.k = s.k WHEN MATCHED THEN UPDATE SET a = DEFAULT WHEN NOT MATCHED BY TARGET THEN INSERT (a) VALUES (1)
BEGIN DECLARE x INT64 DEFAULT 0; WHILE x < 3 DO SET x = x + 1; IF x = 2 THEN BREAK; ELSE CONTINUE; END IF; END WHILE; EXCEPTION WHEN ERROR THEN RAISE; END
FROM data.view AS format |> WHERE key > 1 |> AGGREGATE SUM(n) AS total GROUP BY first |> ORDER BY total DESC
SELECT * FROM t PIVOT(SUM(x) FOR q IN ('a', 'b')) JOIN (FROM u |> DROP n) AS s USING (k)
