import Verif.Props.Schema
import Verif.Proofs.OrderTop
/-!
The order of tokens (C36): a returned tree can be written out, part by part in the order of
`Spec.sourceOrder`, as the tokens of the input in their order.
-/
namespace Verif.Props
open Verif.Spec Verif.Core Verif.AI Verif.OI

theorem parse_uniq {U : Unicode} {code : Str} {ns : List Node} (h : parse U code = .ok ns) :
    ∀ n ∈ ns, OI.Uniq n := by
  intro n hn m hm
  have := C31_unique_keys U code ns h n hn m hm
  rw [children_ents, List.map_map] at this
  rw [OI.keys_ents]
  exact this

/-- C36: the returned trees, written out one after the other, each part of a node as a contiguous block and
the blocks in the order `MustPrecede`, give tokens of the input in their order. -/
theorem C36_source_order (U : Unicode) (hU : U.Lawful) (code : Str) (ns : List Node)
    (h : parse U code = .ok ns) :
    ∃ body w, tokenize U code = .ok (body ++ [Token.eof]) ∧ PrintsAll MustPrecede ns w ∧ w.Sublist body := by
  obtain ⟨toks, stmts, eof, parts, last, h1, rfl, h3⟩ := parse_parsed hU h
  obtain ⟨toks', h1', h2⟩ := (C29_tokenizer_failures U code).2.2 _ h
  rw [h1] at h1'
  cases h1'
  obtain ⟨body, rfl⟩ := tokenize_body h1
  obtain ⟨stmts', eof', w, h4, h5, h6⟩ := parse_prints (ends_eof body) h2
  obtain ⟨rfl, h7⟩ := List.append_inj' h4 rfl
  cases h7
  have h8 := printsAll_append (eof_prints h3.eofTok h3.eofKids) h5
  refine ⟨body, w ++ last, h1, printsAll_anti (fun _ _ _ => must_of_precede) h8, ?_⟩
  have h9 := h3.lastEq
  have hlen : (body ++ [Token.eof]).length - 1 = body.length := by simp
  rw [hlen] at h6 h9
  have hb : body = OI.slice (body ++ [Token.eof]) 0 (leadStart (body ++ [Token.eof]) body.length) ++ last := by
    rw [h9]
    unfold OI.slice Spec.leadingComments
    rw [List.drop_zero, List.take_append_of_le_length (leadStart_body body), List.take_left']
    · rw [List.take_append_drop]
    · rfl
  have h10 := List.Sublist.append h6 (List.Sublist.refl last)
  rwa [← hb] at h10

/-- C36: when no token is lost, the trees written out are the input. -/
theorem C36_source_order_exact (U : Unicode) (hU : U.Lawful) (code : Str) (ns : List Node)
    (h : parse U code = .ok ns) (hn : ∀ n ∈ ns, NoLoss n) :
    ∃ body, tokenize U code = .ok (body ++ [Token.eof]) ∧ PrintsAll MustPrecede ns body := by
  obtain ⟨body, w, h1, h2, h3⟩ := C36_source_order U hU code ns h
  obtain ⟨body', h4, h5⟩ := C15_lossless_except U hU code ns h hn
  rw [h1] at h4
  have h6 : body = body' := List.append_cancel_right (Out.ok.inj h4)
  subst h6
  have h7 := ((printsAll_perm h2 (parse_uniq h)).trans h5).length_eq
  rw [h3.eq_of_length h7] at h2
  exact ⟨body, h1, h2⟩

theorem parse_sorted {U : Unicode} (hU : U.Lawful) {code : Str} {ns : List Node} (h : parse U code = .ok ns) :
    ∃ w, PrintsAll MustPrecede ns w ∧ w.Pairwise Earlier := by
  obtain ⟨body, w, h1, h2, h3⟩ := C36_source_order U hU code ns h
  obtain ⟨body', h4, h5⟩ := C02_positions_increase U code _ h1
  have h6 : body = body' := List.append_cancel_right h4
  subst h6
  refine ⟨w, h2, List.Pairwise.sublist h3 ?_⟩
  rw [List.pairwise_iff_getElem]
  intro i j hi hj hij
  exact h5 i j _ _ hij (List.getElem?_eq_getElem hi) (List.getElem?_eq_getElem hj)

theorem earlier_trans {a b c : Token} (h1 : Earlier a b) (h2 : Earlier b c) : Earlier a c := by
  unfold Earlier at *
  omega

theorem earlier_irrefl {a : Token} (h : Earlier a a) : False := by
  unfold Earlier at h
  omega

/-- C36: of two parts of a node the one that comes first in `sourceOrder` comes first in the source. -/
theorem C36_parts_in_order (U : Unicode) (hU : U.Lawful) (code : Str) (ns : List Node)
    (h : parse U code = .ok ns) (n : Node) (hn : n ∈ ns) (m : Node) (hm : m ∈ nodes n) (a b : Slot)
    (hab : MustPrecede m.ty a b) (x : Token) (hx : x ∈ partTokens m a) (y : Token) (hy : y ∈ partTokens m b) :
    Earlier x y := by
  obtain ⟨w, h1, h2⟩ := parse_sorted hU h
  obtain ⟨w1, h3, h4⟩ := printsAll_sub h1 hn
  obtain ⟨w2, h5, h6⟩ := prints_sub h3 hm
  have hu : OI.Uniq m := fun k hk => parse_uniq h n hn k (nodes_trans hm hk)
  exact prints_parts h5 hu (h2.sublist (h6.trans h4).sublist) hab (precede_ne hab) hx hy

/-- C36: the elements of an array stand in the source in the order of the array. -/
theorem C36_arrays_in_order (U : Unicode) (hU : U.Lawful) (code : Str) (ns : List Node)
    (h : parse U code = .ok ns) :
    (ns.Pairwise fun c d => ∀ x ∈ tokensOf c, ∀ y ∈ tokensOf d, Earlier x y) ∧
    ∀ n ∈ ns, ∀ m ∈ nodes n, ∀ k, (childrenAt m k).Pairwise fun c d =>
      ∀ x ∈ tokensOf c, ∀ y ∈ tokensOf d, Earlier x y := by
  obtain ⟨w, h1, h2⟩ := parse_sorted hU h
  refine ⟨printsAll_pairwise h1 (parse_uniq h) h2, ?_⟩
  intro n hn m hm k
  obtain ⟨w1, h3, h4⟩ := printsAll_sub h1 hn
  obtain ⟨w2, h5, h6⟩ := prints_sub h3 hm
  have hu : OI.Uniq m := fun k hk => parse_uniq h n hn k (nodes_trans hm hk)
  exact prints_array h5 hu (h2.sublist (h6.trans h4).sublist) k

/-- C36: the tokens of a subtree are contiguous: a token of the trees that stands between two tokens of a
subtree belongs to the subtree. -/
theorem C36_subtrees_contiguous (U : Unicode) (hU : U.Lawful) (code : Str) (ns : List Node)
    (h : parse U code = .ok ns) (n : Node) (hn : n ∈ ns) (m : Node) (hm : m ∈ nodes n) (x y z : Token)
    (hx : x ∈ tokensOf m) (hz : z ∈ tokensOf m) (hy : y ∈ ns.flatMap tokensOf) (hxy : Earlier x y)
    (hyz : Earlier y z) : y ∈ tokensOf m := by
  obtain ⟨w, h1, h2⟩ := parse_sorted hU h
  obtain ⟨w1, h3, h4⟩ := printsAll_sub h1 hn
  obtain ⟨w2, h5, h6⟩ := prints_sub h3 hm
  have hu : OI.Uniq m := fun k hk => parse_uniq h n hn k (nodes_trans hm hk)
  obtain ⟨l, r, rfl⟩ := h6.trans h4
  have hp := prints_perm h5 hu
  rw [← hp.mem_iff] at hx hz ⊢
  rw [← (printsAll_perm h1 (parse_uniq h)).mem_iff] at hy
  obtain ⟨g1, _, g3⟩ := List.pairwise_append.1 h2
  obtain ⟨_, _, g4⟩ := List.pairwise_append.1 g1
  rcases List.mem_append.1 hy with hy | hy
  · rcases List.mem_append.1 hy with hy | hy
    · exact (earlier_irrefl (earlier_trans hxy (g4 y hy x hx))).elim
    · exact hy
  · exact (earlier_irrefl (earlier_trans hyz (g3 z (List.mem_append_right _ hz) y hy))).elim

theorem all_listed : ∀ ty ∈ NodeType.all,
    ((declared ty ++ undeclared ty).all fun e => (sourceOrder ty).contains (.child e.1)) = true ∧
      (sourceOrder ty).contains .token = true := by decide +kernel

/-- C36: `sourceOrder` lists every part that a node can have. -/
theorem C36_all_parts_listed (U : Unicode) (hU : U.Lawful) (code : Str) (ns : List Node)
    (h : parse U code = .ok ns) (n : Node) (hn : n ∈ ns) (m : Node) (hm : m ∈ nodes n) :
    ∀ s ∈ slots m, s ∈ sourceOrder m.ty := by
  intro s hs
  obtain ⟨h1, h2⟩ := all_listed m.ty (AI.mem_nodeType_all m.ty)
  unfold slots at hs
  rcases List.mem_append.1 hs with hs | hs
  · split at hs
    · rw [List.mem_singleton.1 hs]
      exact List.contains_iff_mem.1 h2
    · cases hs
  · obtain ⟨e, he, rfl⟩ := List.mem_map.1 hs
    have he := (List.mem_filter.1 he).1
    have hk : arrayAt m.kids e.1 ≠ none := by
      rw [arrayAt_look]
      rw [children_ents] at he
      obtain ⟨e', he', rfl⟩ := List.mem_map.1 he
      rw [Ne, Option.map_eq_none_iff]
      exact look_of_mem he'
    obtain ⟨g1, g2⟩ := C21_children_declared U hU code ns h n hn m hm e.1
    cases ha : arrayAt m.kids e.1 with
    | none => exact absurd ha hk
    | some b =>
      have : ∃ kd, (e.1, kd) ∈ declared m.ty ++ undeclared m.ty := by
        cases b with
        | false => exact ⟨.node, List.mem_append.2 (g1 ha)⟩
        | true => exact ⟨.vec, List.mem_append.2 (g2 ha)⟩
      obtain ⟨kd, hkd⟩ := this
      exact List.contains_iff_mem.1 (List.all_eq_true.1 h1 _ hkd)

/-! ### Examples -/

/-- The pairs of a list, the first one earlier in the list. -/
def pairsOf : List Slot → List (Slot × Slot)
  | [] => []
  | a :: r => r.map (fun b => (a, b)) ++ pairsOf r

/-- The sample input: nodes, pairs of parts with tokens whose order is fixed, subtrees with more than two
tokens, arrays with more than one element. -/
example : (match parse Unicode.sample sampleSql with
    | .ok ns =>
      let ms : List Node := ns.flatMap nodes
      (ms.length,
        (ms.flatMap fun (m : Node) => (pairsOf (sourceOrder m.ty)).filter fun (p : Slot × Slot) =>
          !(swappable m.ty).contains p && !(swappable m.ty).contains (p.2, p.1) &&
          !(partTokens m p.1).isEmpty && !(partTokens m p.2).isEmpty).length,
        (ms.filter fun (m : Node) => decide (2 < (tokensOf m).length)).length,
        (ms.flatMap fun (m : Node) => (children m.kids).filter fun (e : Key × List Node) =>
          decide (1 < e.2.length)).length)
    | _ => (0, 0, 0, 0)) = (38, 65, 12, 2) := by decide +kernel

/-- A concrete pair: in a select statement the expressions precede the `FROM` clause. -/
example : MustPrecede .SelectStatement (.child .k_exprs) (.child .k_from) := by
  unfold MustPrecede
  decide +kernel

/-- Decides `Earlier`. -/
def earlierB (a b : Token) : Bool := decide (a.line < b.line) || (decide (a.line = b.line) && decide (a.column < b.column))

theorem earlierB_iff {a b : Token} : earlierB a b = true ↔ Earlier a b := by
  unfold earlierB Earlier
  simp

/-- Some node of the given type has a token of part `a` before a token of part `b`. -/
def Observed (code : Str) (ty : NodeType) (a b : Slot) : Prop :=
  ∃ ns, parse Unicode.sample code = .ok ns ∧ ∃ n ∈ ns, ∃ m ∈ nodes n, m.ty = ty ∧
    ∃ x ∈ partTokens m a, ∃ y ∈ partTokens m b, Earlier x y

/-- Decides `Observed`. -/
def observedB (code : Str) (ty : NodeType) (a b : Slot) : Bool :=
  match parse Unicode.sample code with
  | .ok ns => ns.any fun n => (nodes n).any fun m => decide (m.ty = ty) &&
      (partTokens m a).any fun x => (partTokens m b).any fun y => earlierB x y
  | _ => false

theorem observedB_sound {code : Str} {ty : NodeType} {a b : Slot} (h : observedB code ty a b = true) :
    Observed code ty a b := by
  unfold observedB at h
  split at h
  · next ns hp =>
    obtain ⟨n, hn, h⟩ := List.any_eq_true.1 h
    obtain ⟨m, hm, h⟩ := List.any_eq_true.1 h
    rw [Bool.and_eq_true, decide_eq_true_eq] at h
    obtain ⟨x, hx, h2⟩ := List.any_eq_true.1 h.2
    obtain ⟨y, hy, h2⟩ := List.any_eq_true.1 h2
    exact ⟨ns, hp, n, hn, m, hm, h.1, x, hx, y, hy, earlierB_iff.1 h2⟩
  · cases h

/-- C36: a fixed order of all parts is false of the code: `NOT` stands before `LIKE` and after `IS`; the
sort order stands before or after the alias; the semicolon of a `MERGE` statement may stand in its middle. -/
theorem C36_exceptions_exist :
    (Observed "SELECT a NOT LIKE b".toList .BinaryOperator (.child .k_not) .token ∧
      Observed "SELECT a IS NOT NULL".toList .BinaryOperator .token (.child .k_not)) ∧
    (Observed "SELECT 1 FROM a ASC AS b".toList .Identifier (.child .k_order) (.child .k_as) ∧
      Observed "SELECT a AS b ASC".toList .Identifier (.child .k_as) (.child .k_order)) ∧
    (Observed "MERGE a USING b ; ON c WHEN MATCHED THEN DELETE".toList .MergeStatement (.child .k_semicolon)
        (.child .k_whens) ∧
      Observed "MERGE a USING b ON c WHEN MATCHED THEN DELETE;".toList .MergeStatement (.child .k_whens)
        (.child .k_semicolon)) :=
  ⟨⟨observedB_sound (by decide +kernel), observedB_sound (by decide +kernel)⟩,
    ⟨observedB_sound (by decide +kernel), observedB_sound (by decide +kernel)⟩,
    observedB_sound (by decide +kernel), observedB_sound (by decide +kernel)⟩

end Verif.Props
