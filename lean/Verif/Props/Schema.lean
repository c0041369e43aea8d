import Verif.Props.Trees
import Verif.Proofs.SchemaMasks
import Verif.Proofs.RoleMasks
import Verif.Proofs.DeviationTable
/-!
Theorems that compare the returned trees with the TypeScript declarations of src/types.rs: children (C21),
tokens (C33), mandatory children (C34), types of children (C35), and a finer table of the roles of children
(C38, Spec/Roles.lean).  The declarations and the exceptions are
tables in Spec/Schema.lean; the exceptions are exact (`*_exceptions_real`).
-/
namespace Verif.Props
open Verif.Spec Verif.Core Verif.AI

/-- A node of a returned tree is the EOF node, a comment without children, or a node the analysis
describes. -/
theorem node_cases {U : Unicode} (hU : U.Lawful) {code : Str} {ns : List Node}
    (h : parse U code = .ok ns) {n m : Node} (hn : n ∈ ns) (hm : m ∈ nodes n) :
    (m.ty = .EOF ∧ m.tok = none ∧ ∀ e ∈ ents m.kids, e.1 = .k_leading_comments ∧ e.2.1 = true ∧
      ∀ c ∈ e.2.2, c.ty = .Comment) ∨
    (∃ t, m = .mk (some t) .Comment .nil) ∨ ∃ toks, J U toks m ∧ Close U m := by
  obtain ⟨toks, stmts, eof, parts, last, _, rfl, h3⟩ := parse_parsed hU h
  rcases List.mem_append.1 hn with hn | hn
  · rcases stmt_closed h3 n hn m hm with ⟨t, rfl, _⟩ | h
    · exact .inr (.inl ⟨t, rfl⟩)
    · exact .inr (.inr ⟨_, h⟩)
  · rw [List.mem_singleton] at hn
    subst hn
    rw [eof_nodes h3] at hm
    rcases List.mem_cons.1 hm with rfl | hm
    · refine .inl ⟨h3.eofTy, h3.eofTok, ?_⟩
      intro e he
      rw [h3.eofKids] at he
      split at he
      · simp at he
      · rw [List.mem_singleton] at he
        subst he
        refine ⟨rfl, rfl, ?_⟩
        intro c hc
        obtain ⟨t, _, rfl⟩ := List.mem_map.1 hc
        rfl
    · obtain ⟨t, _, rfl⟩ := List.mem_map.1 hm
      exact .inr (.inl ⟨t, rfl⟩)

theorem eof_declared : (Key.k_leading_comments, Kind.vec) ∈ declared .EOF := by decide +kernel

theorem eof_childTypes : childTypes .EOF = [(.k_leading_comments, [.Comment])] := by decide +kernel

/-! ### C21 -/

/-- C21: a child of a node is declared for the node's type, as a single node or as an array, or it is one
of the exceptions `undeclared`. -/
theorem C21_children_declared (U : Unicode) (hU : U.Lawful) (code : Str) (ns : List Node)
    (h : parse U code = .ok ns) (n : Node) (hn : n ∈ ns) (m : Node) (hm : m ∈ nodes n) (k : Key) :
    (arrayAt m.kids k = some false → (k, .node) ∈ declared m.ty ∨ (k, .node) ∈ undeclared m.ty) ∧
    (arrayAt m.kids k = some true → (k, .vec) ∈ declared m.ty ∨ (k, .vec) ∈ undeclared m.ty) := by
  rcases node_cases hU h hn hm with ⟨h1, _, h2⟩ | ⟨t, rfl⟩ | ⟨toks, hJ, hC⟩
  · rw [arrayAt_look, h1]
    cases hl : look k (ents m.kids) with
    | none => simp
    | some p =>
      obtain ⟨b, l⟩ := p
      have := h2 _ (mem_of_look hl)
      obtain ⟨rfl, hb, _⟩ := this
      dsimp only at hb
      subst hb
      exact ⟨fun h => (by cases h), fun _ => .inl eof_declared⟩
  · simp [Node.kids, arrayAt]
  · exact ⟨fun hk => List.mem_append.1 (hC.declared_node hk), fun hk => List.mem_append.1 (hC.declared_vec hk)⟩

/-- C21, the exceptions: each of them is a child that is not declared and occurs in the trees of some
input. -/
theorem C21_exceptions_real (ty : NodeType) (k : Key) (kd : Kind) (h : (k, kd) ∈ undeclared ty) :
    (k, kd) ∉ declared ty ∧
    ∃ code ns, parse Unicode.sample code = .ok ns ∧ ∃ n ∈ ns, ∃ m ∈ nodes n, m.ty = ty ∧
      arrayAt m.kids k = some (match kd with | .node => false | .vec => true) := by
  cases kd with
  | node => exact ⟨Dev.forbidden (d := .node ty k) h, Dev.witness (d := .node ty k) h⟩
  | vec => exact ⟨Dev.forbidden (d := .vec ty k) h, Dev.witness (d := .vec ty k) h⟩

/-- How many exceptions there are: undeclared children, missing children, children of other types. -/
example : (NodeType.all.map fun ty => (undeclared ty).length).sum = 280 ∧
    (NodeType.all.map fun ty => (omissible ty).length).sum = 47 ∧
    (NodeType.all.map fun ty => (otherTypes ty).length).sum = 26 := by decide +kernel

/-! ### C33 -/

/-- C33: a node has a token unless its type is `EOF` or `TypeDeclaration`; and for 102 types the token is a
fixed keyword or symbol, or one of a few. -/
theorem C33_tokens (U : Unicode) (hU : U.Lawful) (code : Str) (ns : List Node)
    (h : parse U code = .ok ns) (n : Node) (hn : n ∈ ns) (m : Node) (hm : m ∈ nodes n) :
    (m.tok = none → m.ty = .EOF ∨ m.ty = .TypeDeclaration) ∧
    ∀ ks, tokenOf m.ty = some ks → ∃ t, m.tok = some t ∧ ∃ k ∈ ks, t.upper U = k.lit := by
  rcases node_cases hU h hn hm with ⟨h1, _, _⟩ | ⟨t, rfl⟩ | ⟨toks, hJ, hC⟩
  · refine ⟨fun _ => .inl h1, ?_⟩
    rw [h1]
    intro ks hk
    cases hk
  · refine ⟨fun h => (by cases h), ?_⟩
    intro ks hk
    cases hk
  · constructor
    · intro hn
      by_cases ht : m.ty = .TypeDeclaration
      · exact .inr ht
      · exact absurd hn (hC.hasToken ht)
    · intro ks hk
      refine hC.tokenOf hk (hC.hasToken ?_)
      intro ht
      rw [ht] at hk
      cases hk

/-! ### C34 -/

/-- C34: a child declared without `?` is present, except for those in `omissible`. -/
theorem C34_mandatory_children (U : Unicode) (hU : U.Lawful) (code : Str) (ns : List Node)
    (h : parse U code = .ok ns) (n : Node) (hn : n ∈ ns) (m : Node) (hm : m ∈ nodes n) (k : Key)
    (hk : k ∈ mandatory m.ty) (ho : k ∉ omissible m.ty) : HasChild m k := by
  rcases node_cases hU h hn hm with ⟨h1, _, _⟩ | ⟨t, rfl⟩ | ⟨toks, hJ, hC⟩
  · rw [h1] at hk; cases hk
  · cases hk
  · have := hC.mandatory hk ho
    rw [arrayAt_look] at this
    cases hl : look k (ents m.kids) with
    | none => rw [hl] at this; exact absurd rfl this
    | some p =>
      refine ⟨(k, p.2), ?_, rfl⟩
      rw [children_ents]
      exact List.mem_map.2 ⟨_, mem_of_look hl, rfl⟩

/-- C34, the exceptions: each of them is declared without `?` and left out on some input. -/
theorem C34_exceptions_real (ty : NodeType) (k : Key) (h : k ∈ omissible ty) :
    k ∈ mandatory ty ∧
    ∃ code ns, parse Unicode.sample code = .ok ns ∧ ∃ n ∈ ns, ∃ m ∈ nodes n, m.ty = ty ∧ ¬ HasChild m k :=
  ⟨Dev.forbidden (d := .missing ty k) h, Dev.witness (d := .missing ty k) h⟩

/-! ### C35 -/

/-- C35: a child declared with a union of concrete node types has one of these types, except for the keys
in `otherTypes`. -/
theorem C35_types_of_children (U : Unicode) (hU : U.Lawful) (code : Str) (ns : List Node)
    (h : parse U code = .ok ns) (n : Node) (hn : n ∈ ns) (m : Node) (hm : m ∈ nodes n)
    (e : Key × List NodeType) (he : e ∈ childTypes m.ty) (ho : e.1 ∉ otherTypes m.ty) :
    ∀ c ∈ childrenAt m e.1, c.ty ∈ e.2 := by
  intro c hc
  unfold childrenAt at hc
  rw [children_ents] at hc
  obtain ⟨p, hp, hc⟩ := List.mem_flatMap.1 hc
  obtain ⟨q, hq, rfl⟩ := List.mem_map.1 hp
  dsimp only at hc
  split at hc
  · next hqe =>
    rcases node_cases hU h hn hm with ⟨h1, _, h2⟩ | ⟨t, rfl⟩ | ⟨toks, hJ, hC⟩
    · obtain ⟨hk, _, hty⟩ := h2 q hq
      rw [hty c hc]
      rw [h1] at he
      rw [eof_childTypes, List.mem_singleton] at he
      subst he
      exact List.mem_singleton.2 rfl
    · cases hq
    · exact hJ.childTypes he ho q hq hqe c hc
  · cases hc

/-- C35, the exceptions: for each of them some input has a child of a type that is not declared. -/
theorem C35_exceptions_real (ty : NodeType) (k : Key) (h : k ∈ otherTypes ty) :
    ∃ code ns, parse Unicode.sample code = .ok ns ∧ ∃ n ∈ ns, ∃ m ∈ nodes n, m.ty = ty ∧
      ∃ e ∈ childTypes ty, e.1 = k ∧ ∃ c ∈ childrenAt m k, c.ty ∉ e.2 :=
  Dev.witness (d := .child ty k) h

/-! ### C38 -/

/-- C38: the children of a node play the roles of the table: under a key (and, where the table says so, for
nodes with certain tokens) they have the listed types and tokens and lack the listed children, and those of
certain types have the listed children and tokens. -/
theorem C38_roles (U : Unicode) (hU : U.Lawful) (code : Str) (ns : List Node)
    (h : parse U code = .ok ns) (n : Node) (hn : n ∈ ns) (m : Node) (hm : m ∈ nodes n)
    (r : Spec.Role) (hr : r ∈ everywhere ++ Spec.roles m.ty) : r.Holds U m := by
  intro hp hu c hc
  unfold childrenAt at hc
  rw [children_ents] at hc
  obtain ⟨p, hp', hc⟩ := List.mem_flatMap.1 hc
  obtain ⟨q, hq, rfl⟩ := List.mem_map.1 hp'
  dsimp only at hc
  split at hc
  · next hqe =>
    rcases node_cases hU h hn hm with ⟨_, _, h2⟩ | ⟨t, rfl⟩ | ⟨toks, hJ, hC⟩
    · exact absurd (hqe.symm.trans (h2 q hq).1) fun hk => role_key hr (.inl hk)
    · cases hq
    · exact hJ.roles hC hr hp hu q hq hqe c hc
  · cases hc

/-- A statement with a table operator, a window and an alias. -/
def roleSql : Str := "SELECT SUM(a) OVER (PARTITION BY b) AS c FROM t PIVOT (MAX(d) FOR e IN (1)) ORDER BY c DESC".toList

/-- The roles that concern children of nodes of this statement and fix their types: keys and types. -/
example : (match parse Unicode.sample roleSql with
    | .ok ns => (ns.flatMap nodes).flatMap fun (m : Node) =>
        (everywhere ++ Spec.roles m.ty).filterMap fun (r : Spec.Role) =>
          if (childrenAt m r.key).isEmpty || r.parent.isSome then none
          else match r.types with
            | some [ty] => some (r.key, ty)
            | _ => none
    | _ => []) = [(.k_orderby, .XXXByExprs), (.k_from, .KeywordWithExpr), (.k_over, .OverClause), (.k_as, .Keyword),
      (.k_rparen, .Symbol), (.k_partitionby, .XXXByExprs), (.k_rparen, .Symbol), (.k_by, .Keyword),
      (.k_pivot, .PivotOperator), (.k_config, .PivotConfig), (.k_in, .KeywordWithGroupedXXX),
      (.k_for, .KeywordWithExpr), (.k_rparen, .Symbol), (.k_rparen, .Symbol), (.k_rparen, .Symbol),
      (.k_by, .Keyword), (.k_order, .Keyword)] := by decide +kernel

/-- The children of nodes of this statement for which a role has a requirement on their type: the key, the type,
and the children required. -/
example : (match parse Unicode.sample "ALTER TABLE t ADD PRIMARY KEY (a) NOT ENFORCED".toList with
    | .ok ns => (ns.flatMap nodes).flatMap fun (m : Node) =>
        (everywhere ++ Spec.roles m.ty).flatMap fun (r : Spec.Role) =>
          r.each.flatMap fun (s : Spec.OfType) => (childrenAt m r.key).filterMap fun (c : Node) =>
            if c.ty = s.type then some (r.key, c.ty, s.has) else none
    | _ => []) = [(.k_add_constraints, .AddConstraintClause, [.k_what]), (.k_enforced, .KeywordSequence, [.k_next_keyword])] := by decide +kernel

/-- The sample input: nodes, children, nodes whose token the table fixes, mandatory children. -/
example : (match parse Unicode.sample sampleSql with
    | .ok ns =>
      let ms : List Node := ns.flatMap nodes
      (ms.length, (ms.flatMap fun (m : Node) => m.kids.keys).length, (ms.filter fun (m : Node) => (tokenOf m.ty).isSome).length,
        (ms.flatMap fun (m : Node) => mandatory m.ty).length, (ms.flatMap fun (m : Node) => childTypes m.ty).length)
    | _ => (0, 0, 0, 0, 0)) = (38, 33, 7, 37, 116) := by decide +kernel

end Verif.Props
