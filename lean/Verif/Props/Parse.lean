import Verif.Props.Tokenize
import Verif.Proofs.Tree
import Verif.Proofs.Display
/-!
Theorems about `parse` that hold of every grammar rule alike: termination (C12), error positions
(C23), error propagation (C29), comment-only input (C30), unique keys (C31), rendering (C32).
`parse U code` models the exported function of src/lib.rs.
-/
namespace Verif.Props
open Verif.Spec Verif.Core

/-- An input for the examples: two statements, nested expressions, joins, comments. -/
def sampleSql : Str :=
  "SELECT a.b AS c, -- c1\n f(x, 1) FROM t LEFT JOIN u USING (k) WHERE NOT a IN (1) AND b; /* c2 */ DROP VIEW v".toList

/-- C12: `parse` never runs forever: it ends with a result, an error or a panic. -/
theorem C12_parse_terminates (U : Unicode) (code : Str) : parse U code ≠ .timeout := by
  unfold parse
  have h1 := C04_tokenize_terminates U code
  cases h : tokenize U code with
  | ok toks => exact parseTokensWith_ne_timeout U toks _ _ (by omega) (by omega)
  | err e => simp
  | panic p => simp
  | timeout => exact absurd h h1

/-- C12, bounds: a run on `n` tokens recurses at most `4 n` calls deep and no loop turns more than
`n + 1` times: with these bounds, or any larger ones, nothing is cut off and the outcome is the same. -/
theorem C12_parse_bounds (U : Unicode) (toks : List Token) (fuel depth : Nat)
    (hfuel : toks.length < fuel) (hdepth : 4 * toks.length ≤ depth) :
    parseTokensWith U fuel depth toks ≠ .timeout ∧
      parseTokensWith U fuel depth toks = parseTokens U toks :=
  ⟨parseTokensWith_ne_timeout U toks fuel depth hfuel hdepth, parseTokensWith_eq U toks fuel depth hfuel hdepth⟩

/-- The bound matters: too small a depth does cut off a run. -/
example : (match tokenize Unicode.sample "((1))".toList with
    | .ok toks => (match parseTokensWith Unicode.sample 100 2 toks with | .timeout => true | _ => false)
    | _ => false) = true := by decide +kernel

example : (match parse Unicode.sample sampleSql with | .ok ns => ns.length | _ => 0) = 3 := by
  decide +kernel

/-- C23: a failure of `parse` is the failure of `tokenize`, or points at one of its tokens. -/
theorem C23_parse_error_position (U : Unicode) (code : Str) (e : Err) (h : parse U code = .err e) :
    tokenize U code = .err e ∨
    ∃ toks, tokenize U code = .ok toks ∧ ∃ t ∈ toks, e.line = t.line ∧ e.column = t.column := by
  unfold parse at h
  cases ht : tokenize U code with
  | ok toks =>
    rw [ht] at h
    exact .inr ⟨toks, rfl, parseTokens_errAt U toks e h⟩
  | err e' => rw [ht] at h; cases h; exact .inl rfl
  | panic p => rw [ht] at h; cases h
  | timeout => rw [ht] at h; cases h

/-- Both kinds of failing input exist; so does the sentinel position of the EOF token. -/
example : (parse Unicode.sample "SELECT a NOT b FROM".toList matches .err ⟨1, 14, .site 133 _⟩) = true ∧
    (parse Unicode.sample "SELECT 'a".toList matches .err ⟨1, 10, _⟩) = true ∧
    (parse Unicode.sample "SELECT a FROM".toList matches .err ⟨4294967295, 4294967295, _⟩) = true := by
  decide +kernel

/-- C29: `parse` fails or panics like `tokenize`; if it does not fail, `tokenize` succeeds. -/
theorem C29_tokenizer_failures (U : Unicode) (code : Str) :
    (∀ e, tokenize U code = .err e → parse U code = .err e) ∧
    (∀ p, tokenize U code = .panic p → parse U code = .panic p) ∧
    (∀ ns, parse U code = .ok ns → ∃ toks, tokenize U code = .ok toks ∧ parseTokens U toks = .ok ns) := by
  refine ⟨fun e h => ?_, fun p h => ?_, fun ns h => ?_⟩
  · simp [parse, h]
  · simp [parse, h]
  · unfold parse at h
    cases ht : tokenize U code with
    | ok toks => rw [ht] at h; exact ⟨toks, rfl, h⟩
    | err e' => rw [ht] at h; cases h
    | panic p => rw [ht] at h; cases h
    | timeout => rw [ht] at h; cases h

example : tokenize Unicode.sample "a /* b".toList ≠ .ok [] ∧
    (tokenize Unicode.sample "a /* b".toList matches .err _) = true ∧
    (tokenize Unicode.sample "<".toList matches .panic _) = true := by decide +kernel

theorem leadingComments_all (cs : List Token) (h : ∀ t ∈ cs, t.isComment = true) :
    leadingComments (cs ++ [Token.eof]) = cs.length := by
  induction cs with
  | nil => rfl
  | cons c cs ih =>
    simp only [List.cons_append, leadingComments, h c (by simp), if_true, List.length_cons]
    rw [ih fun t ht => h t (by simp [ht])]

theorem commentNodes_range (pre cs post : List Token) :
    commentNodes (pre ++ cs ++ post) (List.range' pre.length cs.length) =
      .ok (cs.map fun t => Node.new t .Comment) := by
  induction cs generalizing pre with
  | nil => rfl
  | cons c cs ih =>
    have := ih (pre ++ [c])
    simp only [List.length_append, List.length_singleton, List.append_assoc, List.cons_append,
      List.nil_append] at this
    simp only [List.length_cons, List.range'_succ, commentNodes, List.append_assoc, List.cons_append,
      this, tokAt]
    simp

/-- C30: on an input whose tokens are all comments `parse` returns one node without a token, of type
`EOF`, whose only children are the comments under `leading_comments`, in order. -/
theorem C30_comment_only (U : Unicode) (code : Str) (cs : List Token)
    (h : tokenize U code = .ok (cs ++ [Token.eof])) (hc : ∀ t ∈ cs, t.isComment = true) :
    parse U code = .ok [Node.mk none .EOF
      (if cs = [] then .nil
       else .many .k_leading_comments (Nodes.ofList (cs.map fun t => Node.new t .Comment)) .nil)] := by
  simp only [parse, h, Out.bind_ok, parseTokens, parseTokensWith, Core.new, leadingComments_all cs hc]
  rw [show (cs ++ [Token.eof])[cs.length]? = some Token.eof by simp]
  simp only [List.length_append, List.length_singleton, Nat.add_sub_cancel, if_true, Out.bind_ok,
    parseLoop]
  rw [if_pos (by simp [isEof, getOffsetIndex])]
  have h1 : commentNodes (cs ++ [Token.eof]) (range 0 cs.length) =
      .ok (cs.map fun t => Node.new t .Comment) := by
    have := commentNodes_range [] cs [Token.eof]
    simpa [range] using this
  have h2 : getToken (cs ++ [Token.eof]) ⟨cs.length, range 0 cs.length, []⟩ 0 = .ok Token.eof := by
    simp [getToken, getOffsetIndex, tokAt]
  simp only [construct, h2, if_true, attachComments, h1, commentNodes, List.length_map,
    List.length_nil, Nat.lt_irrefl, if_false]
  by_cases hcs : cs = []
  · subst hcs; rfl
  · rw [if_pos (List.length_pos_iff.2 hcs), if_neg hcs]
    rfl

/-- Two comments with blanks around them. -/
example : tokenize Unicode.sample " -- a\n /* b */ ".toList =
    .ok ([⟨1, 2, "-- a".toList⟩, ⟨2, 2, "/* b */".toList⟩] ++ [Token.eof]) := by decide +kernel

/-- C31: no node of a returned tree has two children under the same key. -/
theorem C31_unique_keys (U : Unicode) (code : Str) (ns : List Node) (h : parse U code = .ok ns) :
    ∀ n ∈ ns, ∀ m ∈ nodes n, ((children m.kids).map (·.1)).Nodup := by
  obtain ⟨toks, _, h2⟩ := (C29_tokenizer_failures U code).2.2 ns h
  have hk : ∀ ks : Kids, (children ks).map (·.1) = ks.keys := by
    intro ks
    refine Kids.rec (motive_1 := fun _ => True) (motive_2 := fun ks => (children ks).map (·.1) = ks.keys)
      (motive_3 := fun _ => True) (fun _ _ _ _ => trivial) rfl ?_ ?_ trivial (fun _ _ _ _ => trivial) ks
    · intro k n r _ ih; simp [children, Kids.keys, ih]
    · intro k n r _ ih; simp [children, Kids.keys, ih]
  intro n hn m hm
  rw [hk]
  exact parse_uniqueKeys h2 n hn m hm

/-- The example input has nodes with several children. -/
example : (match parse Unicode.sample sampleSql with
    | .ok ns => (ns.flatMap nodes).any fun m => (children m.kids).length ≥ 4
    | _ => false) = true := by decide +kernel

/-- C32: rendering a returned tree lists, for each node, its literal and type and then its children in
increasing order of their keys, every level indented by two more blanks (`Spec.Renders`). -/
theorem C32_display (U : Unicode) (code : Str) (ns : List Node) (h : parse U code = .ok ns) :
    ∀ n ∈ ns, ∃ ls, Renders 0 n ls ∧ n.display = List.intercalate ['\n'] ls ++ ['\n'] := by
  obtain ⟨toks, _, h2⟩ := (C29_tokenizer_failures U code).2.2 ns h
  intro n hn
  exact ⟨_, renders_lines n (fun m hm => parse_uniqueKeys h2 n hn m hm) 0, rfl⟩

/-- C32 for any tree with unique keys, at any depth. -/
theorem C32_display_any (n : Node) (d : Nat) (h : ∀ m ∈ nodes n, m.kids.keys.Nodup) :
    Renders d n (n.lines d false) :=
  renders_lines n h d

example : (match parse Unicode.sample "SELECT 1".toList with
    | .ok (n :: _) => n.display
    | _ => []) =
    "self: SELECT (SelectStatement)\nexprs:\n- self: 1 (NumericLiteral)\n".toList := by decide +kernel

end Verif.Props
