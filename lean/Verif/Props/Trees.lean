import Verif.Props.Compare
import Verif.Proofs.Result
import Verif.Proofs.Sample
/-!
Theorems about the returned trees: the EOF node (C13), tokens (C14, C15), comments (C16), panics (C17),
slices (C24), separators (C25), literals (C26).
`parse U code` and `tokenize U code` model the exported functions of src/lib.rs.
-/
namespace Verif.Props
open Verif.Spec Verif.Core Verif.AI

/-- What a successful run gives, in the vocabulary of the proofs. -/
theorem parse_parsed {U : Unicode} (hU : U.Lawful) {code : Str} {ns : List Node}
    (h : parse U code = .ok ns) :
    ∃ toks stmts eof parts last, tokenize U code = .ok toks ∧ ns = stmts ++ [eof] ∧
      Parsed U toks stmts eof parts last := by
  obtain ⟨toks, h1, h2⟩ := (C29_tokenizer_failures U code).2.2 ns h
  obtain ⟨body, rfl⟩ := tokenize_body h1
  have := parseTokens_sound hU (ends_eof body)
  rw [h2] at this
  obtain ⟨stmts, eof, parts, last, h3, h4⟩ := Result.parsed this
  exact ⟨_, stmts, eof, parts, last, h1, h3, h4⟩

theorem forall₂_left {α β : Type} {R : α → β → Prop} {P : α → Prop} {l : List α} {l' : List β}
    (h : List.Forall₂ R l l') (hp : ∀ a b, R a b → P a) : ∀ a ∈ l, P a := by
  induction h with
  | nil => simp
  | cons h _ ih =>
    intro a ha
    rcases List.mem_cons.1 ha with rfl | ha
    · exact hp _ _ h
    · exact ih a ha

theorem stmt_closed {U : Unicode} {toks : List Token} {stmts : List Node} {eof : Node}
    {parts : List (List Token)} {last : List Token} (h : Parsed U toks stmts eof parts last) :
    ∀ n ∈ stmts, Closed U toks n :=
  forall₂_left h.stmts fun _ _ h => h.2.1

/-- The nodes below the EOF node are comments. -/
theorem eof_nodes {U : Unicode} {toks : List Token} {stmts : List Node} {eof : Node}
    {parts : List (List Token)} {last : List Token} (h : Parsed U toks stmts eof parts last) :
    nodes eof = eof :: last.map cnode := by
  rw [nodes_eq, h.eofKids]
  split
  · next hl => simp [hl]
  · rw [List.flatMap_cons, List.flatMap_nil, List.append_nil]
    simp only
    rw [flatMap_cnode]

theorem eof_tokens {U : Unicode} {toks : List Token} {stmts : List Node} {eof : Node}
    {parts : List (List Token)} {last : List Token} (h : Parsed U toks stmts eof parts last) :
    tokensOf eof = last := by
  unfold tokensOf
  rw [eof_nodes h, List.filterMap_cons, h.eofTok, List.filterMap_map]
  dsimp only
  generalize last = l
  induction l with
  | nil => rfl
  | cons a l ih => rw [List.filterMap_cons]; simp only [Function.comp_apply, cnode, Node.tok]; rw [ih]

/-! ### C13 -/

/-- C13: a successful parse returns statements followed by one node of type `EOF`; this has no token, no
children but leading comments, and no statement contains another `EOF` node. -/
theorem C13_eof_node (U : Unicode) (hU : U.Lawful) (code : Str) (ns : List Node)
    (h : parse U code = .ok ns) :
    ∃ stmts eof, ns = stmts ++ [eof] ∧ eof.ty = .EOF ∧ eof.tok = none ∧
      (∀ e ∈ children eof.kids, e.1 = .k_leading_comments ∧ ∀ c ∈ e.2, IsCommentNode c) ∧
      ∀ n ∈ stmts, ∀ m ∈ nodes n, m.ty ≠ .EOF := by
  obtain ⟨toks, stmts, eof, parts, last, _, h2, h3⟩ := parse_parsed hU h
  refine ⟨stmts, eof, h2, h3.eofTy, h3.eofTok, ?_, ?_⟩
  · intro e he
    rw [children_ents, h3.eofKids] at he
    split at he
    · simp at he
    · simp only [List.map_cons, List.map_nil, List.mem_singleton] at he
      subst he
      refine ⟨rfl, ?_⟩
      intro c hc
      obtain ⟨t, _, rfl⟩ := List.mem_map.1 hc
      exact ⟨t, rfl⟩
  · intro n hn m hm
    rcases stmt_closed h3 n hn m hm with ⟨t, rfl, _⟩ | h
    · simp [Node.ty]
    · exact h.1.ty.1

/-- Two statements and a comment at the end. -/
example : (match parse Unicode.sample "SELECT 1; SELECT 2 -- a\n -- b".toList with
    | .ok ns => ns.map fun n => (n.ty, (nodes n).length)
    | _ => []) = [(.SelectStatement, 3), (.SelectStatement, 3), (.EOF, 2)] := by decide +kernel

/-! ### C14 and C15 -/

/-- C14: the tokens stored in the returned trees are among the tokens of the input, without the EOF token
and each at most as often. -/
theorem C14_no_invented_tokens (U : Unicode) (hU : U.Lawful) (code : Str) (ns : List Node)
    (h : parse U code = .ok ns) :
    ∃ body, tokenize U code = .ok (body ++ [Token.eof]) ∧ (ns.flatMap tokensOf).Subperm body := by
  obtain ⟨toks, stmts, eof, parts, last, h1, rfl, h3⟩ := parse_parsed hU h
  obtain ⟨body, rfl⟩ := tokenize_body h1
  have ht := h3.tokens
  rw [List.append_left_inj] at ht
  refine ⟨body, h1, ?_⟩
  rw [List.flatMap_append, List.flatMap_cons, List.flatMap_nil, List.append_nil, eof_tokens h3, ht]
  refine List.Subperm.append ?_ (List.Subperm.refl _)
  have := h3.stmts
  clear ht h3 h1 h
  induction this with
  | nil => exact List.Subperm.refl _
  | cons h _ ih =>
    rw [List.flatMap_cons, List.flatten_cons]
    exact h.1.sub.append ih

/-- C14: no token is stored twice. -/
theorem C14_no_duplicated_tokens (U : Unicode) (hU : U.Lawful) (code : Str) (ns : List Node)
    (h : parse U code = .ok ns) : (ns.flatMap tokensOf).Nodup := by
  obtain ⟨body, h1, h2⟩ := C14_no_invented_tokens U hU code ns h
  obtain ⟨body', h3, h4⟩ := C02_positions_increase U code _ h1
  rw [List.append_left_inj] at h3
  subst h3
  have hn : body.Nodup := by
    refine List.pairwise_iff_getElem.2 ?_
    intro i j hi hj hij he
    have := h4 i j _ _ hij (List.getElem?_eq_getElem hi) (List.getElem?_eq_getElem hj)
    rw [he] at this
    omega
  obtain ⟨l, hp, hs⟩ := h2
  exact hp.nodup_iff.1 (hs.nodup hn)

/-- The sample input has 38 tokens, and all but the EOF token are in the trees. -/
example : (match tokenize Unicode.sample sampleSql, parse Unicode.sample sampleSql with
    | .ok toks, .ok ns => (toks.length, (ns.flatMap tokensOf).length)
    | _, _ => (0, 0)) = (38, 37) := by decide +kernel

/-- C15: unless a token could have been overwritten (`NoLoss`), the tokens stored in the returned trees are
exactly the tokens of the input without the EOF token. -/
theorem C15_lossless_except (U : Unicode) (hU : U.Lawful) (code : Str) (ns : List Node)
    (h : parse U code = .ok ns) (hn : ∀ n ∈ ns, NoLoss n) :
    ∃ body, tokenize U code = .ok (body ++ [Token.eof]) ∧ (ns.flatMap tokensOf).Perm body := by
  obtain ⟨toks, stmts, eof, parts, last, h1, rfl, h3⟩ := parse_parsed hU h
  obtain ⟨body, rfl⟩ := tokenize_body h1
  have ht := h3.tokens
  rw [List.append_left_inj] at ht
  refine ⟨body, h1, ?_⟩
  rw [List.flatMap_append, List.flatMap_cons, List.flatMap_nil, List.append_nil, eof_tokens h3, ht]
  refine List.Perm.append ?_ (List.Perm.refl _)
  have hf := h3.stmts
  have hn' : ∀ n ∈ stmts, NoLoss n := fun n hm => hn n (List.mem_append_left _ hm)
  clear ht h3 h1 h hn
  induction hf with
  | nil => exact List.Perm.refl _
  | cons h _ ih =>
    rw [List.flatMap_cons, List.flatten_cons]
    exact (h.1.all (hn' _ (by simp))).append (ih fun n hm => hn' n (by simp [hm]))

/-- C15: tokens other than comments and semicolons are never lost, unless a column has a primary key, a
reference and an enforcement. -/
theorem C15_only_enforcement_lost (U : Unicode) (hU : U.Lawful) (code : Str) (ns : List Node)
    (h : parse U code = .ok ns) (hn : ∀ n ∈ ns, NoColumnLoss n) :
    ∃ body, tokenize U code = .ok (body ++ [Token.eof]) ∧
      ∀ t ∈ body, t.isComment = false → t.literal ≠ [';'] → t ∈ ns.flatMap tokensOf := by
  obtain ⟨toks, stmts, eof, parts, last, h1, rfl, h3⟩ := parse_parsed hU h
  obtain ⟨body, rfl⟩ := tokenize_body h1
  have ht := h3.tokens
  rw [List.append_left_inj] at ht
  refine ⟨body, h1, ?_⟩
  rw [List.flatMap_append, List.flatMap_cons, List.flatMap_nil, List.append_nil, eof_tokens h3, ht]
  intro t hm hc hs
  rcases List.mem_append.1 hm with hm | hm
  · refine List.mem_append_left _ ?_
    have hf := h3.stmts
    have hn' : ∀ n ∈ stmts, NoColumnLoss n := fun n hm => hn n (List.mem_append_left _ hm)
    rename_i hm0
    clear ht h3 h1 h hn hm0
    induction hf with
    | nil => simp at hm
    | cons h _ ih =>
      rw [List.flatMap_cons]
      rw [List.flatten_cons] at hm
      rcases List.mem_append.1 hm with hm | hm
      · exact List.mem_append_left _ (h.1.most (hn' _ (by simp)) t hm hc hs)
      · exact List.mem_append_right _ (ih hm fun n hm => hn' n (by simp [hm]))
  · exact List.mem_append_right _ hm

/-- Decides `LossyColumn` or `LossyStatement`. -/
def lossyB (m : Node) : Bool :=
  let has := fun k => (children m.kids).any fun e => e.1 = k
  (decide (m.ty = .Type) && has .k_primarykey && has .k_references && has .k_enforced) ||
  (decide (m.ty = .MergeStatement) && has .k_semicolon) ||
  ((decide (m.ty = .FromStatement) || decide (m.ty = .PipeStatement)) && has .k_leading_label && has .k_semicolon)

/-- The sample input meets the hypothesis; so do a labelled loop, a `MERGE` without semicolon and a column
with a primary key. -/
example : (match parse Unicode.sample sampleSql with
    | .ok ns => (ns.flatMap nodes).any lossyB
    | _ => true) = false ∧
    (match parse Unicode.sample "l: LOOP CREATE TABLE t (a INT64 PRIMARY KEY NOT ENFORCED); END LOOP l; MERGE t USING s ON a WHEN MATCHED THEN DELETE".toList with
    | .ok ns => (ns.flatMap nodes).any lossyB
    | _ => true) = false := by decide +kernel

/-- Some token of the input is in no tree. -/
def LosesToken (U : Unicode) (code : Str) : Prop :=
  ∃ body ns, tokenize U code = .ok (body ++ [Token.eof]) ∧ parse U code = .ok ns ∧
    ∃ t ∈ body, t ∉ ns.flatMap tokensOf

/-- Decides `LosesToken`. -/
def losesB (U : Unicode) (code : Str) : Bool :=
  match tokenize U code, parse U code with
  | .ok toks, .ok ns => toks.dropLast.any fun t => !(ns.flatMap tokensOf).contains t
  | _, _ => false

theorem losesB_sound {U : Unicode} {code : Str} (h : losesB U code = true) : LosesToken U code := by
  unfold losesB at h
  split at h
  · next toks ns h1 h2 =>
    obtain ⟨body, rfl⟩ := tokenize_body h1
    rw [List.dropLast_concat] at h
    obtain ⟨t, ht, h⟩ := List.any_eq_true.1 h
    exact ⟨body, ns, h1, h2, t, ht, by simpa using h⟩
  · cases h

/-- C15 without the exception is false, in each of the excepted cases: a `MERGE` statement with two
semicolons, labelled `FROM` and pipe statements with two semicolons, a column with two enforcements. -/
theorem C15_loss_exists :
    LosesToken Unicode.sample "MERGE t USING s; ON a WHEN MATCHED THEN DELETE;".toList ∧
    LosesToken Unicode.sample "l: FROM t;;".toList ∧
    LosesToken Unicode.sample "l: FROM t |> WHERE a;;".toList ∧
    LosesToken Unicode.sample
      "CREATE TABLE t (a INT64 PRIMARY KEY NOT ENFORCED REFERENCES u(b) NOT ENFORCED)".toList := by
  refine ⟨losesB_sound ?_, losesB_sound ?_, losesB_sound ?_, losesB_sound ?_⟩ <;> decide +kernel

/-! ### C16 -/

/-- C16: exactly the nodes under `leading_comments` and `trailing_comments` are comments, and they have
nothing below them.  Every other node either holds no token and no comments, or it holds the token at
some index together with exactly the comments that belong to that token (`Carries`); the EOF node holds
the comments that lead the last token. -/
theorem C16_comment_attachment (U : Unicode) (hU : U.Lawful) (code : Str) (ns : List Node)
    (h : parse U code = .ok ns) :
    ∃ toks stmts eof, tokenize U code = .ok toks ∧ ns = stmts ++ [eof] ∧
      (∀ n ∈ stmts, n.ty ≠ .Comment ∧ ∀ m ∈ nodes n,
        (∀ e ∈ children m.kids, ∀ c ∈ e.2,
          ((e.1 = .k_leading_comments ∨ e.1 = .k_trailing_comments) → IsCommentNode c) ∧
          (c.ty = .Comment → (e.1 = .k_leading_comments ∨ e.1 = .k_trailing_comments))) ∧
        (m.ty ≠ .Comment →
          (m.tok = none ∧ arrayAt m.kids .k_leading_comments = none ∧
            arrayAt m.kids .k_trailing_comments = none) ∨
          ∃ i, Carries toks i m)) ∧
      childrenAt eof .k_leading_comments =
        (leadingComments toks (toks.length - 1)).map fun t => .mk (some t) .Comment .nil := by
  obtain ⟨toks, stmts, eof, parts, last, h1, h2, h3⟩ := parse_parsed hU h
  refine ⟨toks, stmts, eof, h1, h2, ?_, ?_⟩
  · intro n hn
    have hc := stmt_closed h3 n hn
    refine ⟨?_, ?_⟩
    · have := forall₂_left (P := fun n => n.ty ≠ .Comment) h3.stmts (fun _ _ h => h.2.2.1.j.ty.2) n hn
      exact this
    · intro m hm
      rcases hc m hm with ⟨t, rfl, _⟩ | hg
      · refine ⟨by simp [Node.kids, children], fun h => absurd rfl h⟩
      · refine ⟨?_, fun _ => hg.1.comments⟩
        intro e he c hce
        rw [children_ents] at he
        obtain ⟨e', he', rfl⟩ := List.mem_map.1 he
        have hk := hg.1.kid e' he' c hce
        refine ⟨fun h => ?_, fun h => ?_⟩
        · obtain ⟨t, rfl, _⟩ := hk.comment h
          exact ⟨t, rfl⟩
        · by_contra hne
          exact hk.other hne h
  · rw [childrenAt_ents, h3.eofKids, h3.lastEq]
    split
    · next hl => simp [hl]
    · simp only [List.flatMap_cons, List.flatMap_nil, List.append_nil, if_true]
      rfl

/-- Leading and trailing comments of inner nodes. -/
example : (match parse Unicode.sample "-- a\nSELECT /* b */ 1 -- c\n, /* d */ 2 -- e\n;".toList with
    | .ok (n :: _) => (nodes n).map fun m => (m.tok.map fun t => String.ofList t.literal,
        (childrenAt m .k_leading_comments).length, (childrenAt m .k_trailing_comments).length)
    | _ => []) =
    [(some "SELECT", 1, 1), (some "-- a", 0, 0), (some "/* b */", 0, 0), (some "1", 0, 1), (some "-- c", 0, 0),
     (some ",", 0, 1), (some "/* d */", 0, 0), (some "2", 0, 1), (some "-- e", 0, 0), (some ";", 0, 0)] := by
  decide +kernel

/-! ### C17 -/

/-- C17: if `parse` panics, then `tokenize` does (see C05), or the panic is the `unwrap` of the first
character of an empty literal; only the EOF token has an empty literal. -/
theorem C17_parse_panics (U : Unicode) (hU : U.Lawful) (code : Str) (p : Panic)
    (h : parse U code = .panic p) :
    tokenize U code = .panic p ∨
    (p = .emptyLiteral ∧ ∃ body, tokenize U code = .ok (body ++ [Token.eof]) ∧
      ∀ t ∈ body, t.literal ≠ []) := by
  unfold parse at h
  cases ht : tokenize U code with
  | ok toks =>
    rw [ht] at h
    obtain ⟨body, rfl, hb⟩ := C03_eof_token_last U code toks ht
    have := parseTokens_sound hU (ends_eof body)
    change parseTokens U _ = _ at h
    change match parseTokens U (body ++ [Token.eof]) with
      | .ok ns => _ | .err _ => _ | .panic p => _ | .timeout => _ at this
    rw [show Token.eof = ⟨usizeMax, usizeMax, []⟩ from rfl] at this
    rw [h] at this
    exact .inr ⟨this, body, rfl, hb⟩
  | err e => rw [ht] at h; cases h
  | panic q => rw [ht] at h; cases h; exact .inl rfl
  | timeout => rw [ht] at h; cases h

/-- Both kinds of panic happen, the second also before the end of the input. -/
theorem C17_panics_exist :
    parse Unicode.sample "< 1".toList = .panic .noLastToken ∧
    parse Unicode.sample "TRUNCATE TABLE".toList = .panic .emptyLiteral ∧
    parse Unicode.sample "DROP TABLE".toList = .panic .emptyLiteral ∧
    parse Unicode.sample "CREATE VIEW v AS REPLICA ;".toList = .panic .emptyLiteral := by
  have key : ∀ (o : Out (List Node)) p, (match o with | .panic q => decide (q = p) | _ => false) = true →
      o = .panic p := by
    intro o p h
    cases o <;> simp_all
  refine ⟨key _ _ ?_, key _ _ ?_, key _ _ ?_, key _ _ ?_⟩ <;> decide +kernel

/-! ### C24 -/

/-- C24: the token list is the concatenation of one slice per statement, the comments of the EOF node and
the EOF token.  The tokens of a statement come from its slice (its own token is one of them), and they
are all of it unless a token could have been overwritten. -/
theorem C24_statement_slices (U : Unicode) (hU : U.Lawful) (code : Str) (ns : List Node)
    (h : parse U code = .ok ns) :
    ∃ stmts eof slices, ns = stmts ++ [eof] ∧
      tokenize U code = .ok (slices.flatten ++ tokensOf eof ++ [Token.eof]) ∧
      List.Forall₂ (fun n ts => (tokensOf n).Subperm ts ∧ (∃ t, n.tok = some t ∧ t ∈ ts) ∧
        (NoLoss n → (tokensOf n).Perm ts)) stmts slices := by
  obtain ⟨toks, stmts, eof, parts, last, h1, h2, h3⟩ := parse_parsed hU h
  refine ⟨stmts, eof, parts, h2, by rw [eof_tokens h3, ← h3.tokens, h1], ?_⟩
  refine h3.stmts.imp ?_
  rintro n ts ⟨h4, h5, h6⟩
  refine ⟨h4.sub, ?_, h4.all⟩
  have hlit : stmtAlts.all (fun a => !Nat.testBit a.lit NOTOK) = true := by decide +kernel
  obtain ⟨_, a, ha, hs⟩ := h6
  have hl := List.all_eq_true.1 hlit a ha
  cases ht : n.tok with
  | none =>
    have := hs.lit
    unfold nodeCls at this
    rw [ht] at this
    simp [this] at hl
  | some t =>
    refine ⟨t, rfl, h4.sub.subset ?_⟩
    unfold tokensOf
    exact List.mem_filterMap.2 ⟨n, self_mem_nodes n, ht⟩

/-- Three statements and the comment at the end. -/
example : (match parse Unicode.sample "SELECT 1; /* a */ BEGIN SELECT 2; END; DROP VIEW v -- b\n -- c".toList with
    | .ok ns => ns.map fun n => (tokensOf n).length
    | _ => []) = [4, 6, 4, 1] := by decide +kernel

/-! ### C25 and C26 -/

/-- C25: a child under `semicolon` is the symbol `;` and a child under `comma` is the symbol `,`, and these
have nothing below them but comments. -/
theorem C25_separators (U : Unicode) (hU : U.Lawful) (code : Str) (ns : List Node)
    (h : parse U code = .ok ns) : ∀ n ∈ ns, ∀ m ∈ nodes n, ∀ e ∈ children m.kids, ∀ c ∈ e.2,
      (e.1 = .k_semicolon → c.ty = .Symbol ∧ (∃ t, c.tok = some t ∧ t.literal = [';']) ∧
        ∀ e' ∈ children c.kids, e'.1 = .k_leading_comments ∨ e'.1 = .k_trailing_comments) ∧
      (e.1 = .k_comma → c.ty = .Symbol ∧ (∃ t, c.tok = some t ∧ t.literal = [',']) ∧
        ∀ e' ∈ children c.kids, e'.1 = .k_leading_comments ∨ e'.1 = .k_trailing_comments) := by
  obtain ⟨toks, stmts, eof, parts, last, _, rfl, h3⟩ := parse_parsed hU h
  have key : ∀ kw c, SymLeaf kw c → c.ty = .Symbol ∧ (∃ t, c.tok = some t ∧ t.literal = kw.lit) ∧
      ∀ e' ∈ children c.kids, e'.1 = .k_leading_comments ∨ e'.1 = .k_trailing_comments := by
    intro kw c hs
    refine ⟨hs.ty, hs.tok, ?_⟩
    intro e he
    rw [children_ents] at he
    obtain ⟨e', he', rfl⟩ := List.mem_map.1 he
    exact hs.kids e' he'
  intro n hn m hm e he c hc
  rw [children_ents] at he
  obtain ⟨e', he', rfl⟩ := List.mem_map.1 he
  rcases List.mem_append.1 hn with hn | hn
  · rcases stmt_closed h3 n hn m hm with ⟨t, rfl, _⟩ | hg
    · simp [Node.kids, ents] at he'
    · have hk := hg.1.kid e' he' c hc
      exact ⟨fun h => key _ _ (hk.semicolon h), fun h => key _ _ (hk.comma h)⟩
  · rw [List.mem_singleton] at hn
    subst hn
    rw [eof_nodes h3] at hm
    rcases List.mem_cons.1 hm with rfl | hm
    · rw [h3.eofKids] at he'
      split at he'
      · simp at he'
      · rw [List.mem_singleton] at he'
        subst he'
        refine ⟨fun h => ?_, fun h => ?_⟩ <;> (dsimp only at h; cases h)
    · obtain ⟨t, _, rfl⟩ := List.mem_map.1 hm
      simp [cnode, Node.kids, ents] at he'

example : (match parse Unicode.sample sampleSql with
    | .ok ns => (ns.flatMap nodes).map fun m =>
        ((childrenAt m .k_semicolon).length, (childrenAt m .k_comma).length)
    | _ => []).foldl (fun a (b : Nat × Nat) => (a.1 + b.1, a.2 + b.2)) (0, 0) = (1, 2) := by decide +kernel

/-- C26: what the tokens of literal nodes look like. -/
theorem C26_literals (U : Unicode) (hU : U.Lawful) (code : Str) (ns : List Node)
    (h : parse U code = .ok ns) : ∀ n ∈ ns, ∀ m ∈ nodes n,
      (m.ty = .NullLiteral → ∃ t, m.tok = some t ∧ U.upper t.literal = "NULL".toList) ∧
      (m.ty = .BooleanLiteral → ∃ t, m.tok = some t ∧
        (U.upper t.literal = "TRUE".toList ∨ U.upper t.literal = "FALSE".toList)) ∧
      (m.ty = .Parameter → ∃ t r, m.tok = some t ∧ (t.literal = '?' :: r ∨ t.literal = '@' :: r)) ∧
      (m.ty = .Template → ∃ t r, m.tok = some t ∧ t.literal = '{' :: r) ∧
      (m.ty = .Asterisk → ∃ t, m.tok = some t ∧ t.literal = ['*']) := by
  obtain ⟨toks, stmts, eof, parts, last, _, rfl, h3⟩ := parse_parsed hU h
  intro n hn m hm
  rcases List.mem_append.1 hn with hn | hn
  · rcases stmt_closed h3 n hn m hm with ⟨t, rfl, _⟩ | hg
    · simp [Node.ty]
    · have hl := hg.1.lits
      refine ⟨fun h => ?_, fun h => ?_, fun h => ?_, fun h => ?_, fun h => ?_⟩
      · exact hl.null h
      · obtain ⟨t, h1, h2⟩ := hl.boolean h
        refine ⟨t, h1, ?_⟩
        simp only [Token.isBoolean, Bool.or_eq_true, beq_iff_eq] at h2
        exact h2
      · obtain ⟨t, h1, h2⟩ := hl.parameter h
        unfold Token.isParameter at h2
        split at h2
        · next c r hc =>
          simp only [Bool.or_eq_true, beq_iff_eq] at h2
          refine ⟨t, r, h1, ?_⟩
          rw [hc]
          rcases h2 with rfl | rfl
          · exact .inl rfl
          · exact .inr rfl
        · cases h2
      · obtain ⟨t, h1, h2⟩ := hl.template h
        unfold Token.isTemplate at h2
        split at h2
        · next c r hc =>
          simp only [beq_iff_eq] at h2
          exact ⟨t, r, h1, by rw [hc, h2]⟩
        · cases h2
      · exact hl.asterisk h
  · rw [List.mem_singleton] at hn
    subst hn
    rw [eof_nodes h3] at hm
    rcases List.mem_cons.1 hm with rfl | hm
    · rw [h3.eofTy]
      simp
    · obtain ⟨t, _, rfl⟩ := List.mem_map.1 hm
      simp [cnode, Node.ty]

end Verif.Props
