import Verif.Proofs.BlockFor
/-! Loops with and without labels give their trees. -/
namespace Verif.Sym
open Core Interp Spec
open Slow (StandAt)

/-- `parse_labeled_statement`: a label must not be given twice. -/
def labelTwice : Cmd := .ite (.hasAnyKey v_stmt [.k_leading_label, .k_colon]) (.fail (.lit 0) 4108) .skip

theorem label_body : Program.parse_labeled_statement.body = .seq (.set v_label (.construct .Identifier)) (.seq .next
    (.seq (.set v_colon (.construct .Symbol)) (.seq .next (.seq (.set v_stmt (.call .parse_statement [.bool false]))
      (.seq labelTwice labelPost))))) := rfl

theorem labelEnv_sound {I : Itp} {a b c : Node} {j : Nat} (ha : I.H 0 = a) (hb : I.H 1 = b) (hc : I.H 2 = c) (hj : I.at_ 0 = j) :
    RS I ⟨0, labelEnv⟩ ⟨⟨j, [], []⟩, (((bindParams [v_semicolon] [.bool true]).set v_label (.node b)).set v_colon (.node c)).set
      v_stmt (.node a)⟩ := by
  refine ⟨by rw [← hj]; rfl, ?_⟩
  intro x
  unfold labelEnv
  simp only [abind, AEnv.set]
  split
  · rename_i hx; subst hx; rw [← ha]; rfl
  · split
    · rename_i hx; subst hx; rw [← hb]; rfl
    · split
      · rename_i hx; subst hx; rw [← hc]; rfl
      · split
        · rename_i hx; subst hx; rfl
        · trivial

section
variable {U : Unicode} (hU : U.Lawful) {T : List Token} (hnc : ∀ t ∈ T, t.isComment = false) (hA : Lex.Apart T) {fuel : Nat}
  (hF : T.length + 1 ≤ fuel)
include hU hnc hA hF

/-- What is after the statement that has a label. -/
theorem label_end {m : Bool} {j : Nat} {a b c : Node} (h1 : m = true → ∃ t, T[j + 1]? = some t ∧ OtherOk U t .Identifier)
    (h2 : WordAt U T (j + (if m then 2 else 1)) ";".toList) (hm : j + (if m then 2 else 1) + 1 < T.length) {N : Nat} :
    ∃ s', exec (cx U T fuel N) labelPost ⟨⟨j, [], []⟩, (((bindParams [v_semicolon] [.bool true]).set v_label (.node b)).set v_colon
        (.node c)).set v_stmt (.node a)⟩ =
      .ok (.ret (.node (if m then ((((a.pushNode .k_leading_label b).pushNode .k_colon c).pushNode .k_trailing_label
        (leaf T .Identifier (j + 1))).pushNode .k_semicolon (leaf T .Symbol (j + 2))) else
        (((a.pushNode .k_leading_label b).pushNode .k_colon c).pushNode .k_semicolon (leaf T .Symbol (j + 1))))), s') ∧
      s'.ps = ⟨j + (if m then 2 else 1), [], []⟩ := by
  let I : Itp := ⟨U, T, j :: (if m then [j + 1, j + 2] else [j + 1]), fun i => if i = 0 then a else if i = 1 then b else c,
    fun _ => [], 0, true, []⟩
  have hL : Lay U T I.H I.V fuel 0 (wLabel m).cells I.pos := by
    cases m with
    | true =>
      simp only [if_true] at h2 hm
      refine lay_cell bare_ok rfl (by omega) rfl rfl ?_
      refine lay_cell (name_cell (h1 rfl)) rfl (by omega) rfl rfl ?_
      exact lay_last h2.cell rfl hm
    | false =>
      simp only [Bool.false_eq_true, if_false] at h2 hm
      refine lay_cell bare_ok rfl (by omega) rfl rfl ?_
      exact lay_last h2.cell rfl hm
  obtain ⟨s', k1, k2⟩ := ret_run (view_win hU hnc hA hF (I := I) rfl rfl hL rfl) (by have : rounds = 4 := rfl; cases m <;> simp at hm <;> omega) hL
    (N := N) (by omega) (labelEnv_sound (I := I) (a := a) (b := b) (c := c) (j := j) rfl rfl rfl rfl) (blocks_ok.2.2.1 m)
  refine ⟨s', k1.trans ?_, k2.trans ?_⟩ <;> cases m <;> rfl

/-- A statement with a label. -/
theorem label_call {ws : List Str} {node : Nat → Node} (hc : LoopCall U T fuel ws node) (hpos : 1 ≤ ws.length)
    (hk : ∀ q, ((node q).kids.keys.any fun k => [Key.k_leading_label, .k_colon].contains k) = false)
    {l : Str} {m : Bool} {q : Nat} {r : List Str} (hl : AtomIs U l .Identifier) (hs : StandAt T q (l :: ":".toList :: (ws ++ r)))
    (h1 : m = true → ∃ t, T[q + 2 + ws.length]? = some t ∧ OtherOk U t .Identifier)
    (h2 : WordAt U T (q + 1 + ws.length + (if m then 2 else 1)) ";".toList)
    (hm : q + 1 + ws.length + (if m then 2 else 1) + 1 < T.length) {N : Nat} (hN : 4 * ws.length ≤ N) :
    callN U Program.defs T fuel (N + 2) .parse_statement [.bool true] ⟨q, [], []⟩ =
      .ok (.node (if m then (((((node (q + 2)).pushNode .k_leading_label (leaf T .Identifier q)).pushNode .k_colon
          (leaf T .Symbol (q + 1))).pushNode .k_trailing_label (leaf T .Identifier (q + 2 + ws.length))).pushNode .k_semicolon
          (leaf T .Symbol (q + 2 + ws.length + 1))) else
        ((((node (q + 2)).pushNode .k_leading_label (leaf T .Identifier q)).pushNode .k_colon
          (leaf T .Symbol (q + 1))).pushNode .k_semicolon (leaf T .Symbol (q + 2 + ws.length)))),
        ⟨q + 1 + ws.length + (if m then 2 else 1), [], []⟩) := by
  have hr : rounds = 4 := rfl
  have hm1 : 1 ≤ (if m then 2 else 1) := by cases m <;> decide
  have s1 := StandAt.tail hs
  have s2 := StandAt.tail s1
  have s3 : StandAt T (q + 1 + 1) ws := StandAt.left s2
  obtain ⟨tc, c1, c2⟩ := wordAt_of hU s1 colon_vocab
  refine dispatch hnc hA (b := .other .Identifier) (next := [.lit ":".toList]) (f := .parse_labeled_statement) blocks_ok.2.1
    (name_cell (name_at hU hl hs)) ⟨tc, c1, _, List.mem_singleton.2 rfl, c2⟩ (by omega) (by omega) (by omega) ?_
  have hcall : callN U Program.defs T fuel N .parse_statement [.bool false] ⟨q + 2, [], []⟩ =
      .ok (.node (node (q + 2)), ⟨q + 1 + ws.length, [], []⟩) := by
    have hN' : q + 2 + ws.length - 1 = q + 1 + ws.length := by omega
    cases m with
    | true =>
      have := hc (q + 2) (false, .other .Identifier) (by simp [loopEnds]) s3 (name_cell (h1 rfl)) (by omega) N hN
      simpa [semiNode, hN'] using this
    | false =>
      simp only [Bool.false_eq_true, if_false] at h2
      rw [show q + 1 + ws.length + 1 = q + 2 + ws.length by omega] at h2
      have := hc (q + 2) (false, .lit ";".toList) (by simp [loopEnds]) s3 h2.cell (by omega) N hN
      simpa [semiNode, hN'] using this
  let a := node (q + 2)
  let b := leaf T .Identifier q
  let c := leaf T .Symbol (q + 1)
  let env0 : Env := bindParams [v_semicolon] [.bool true]
  let env1 := env0.set v_label (.node b)
  let env2 := env1.set v_colon (.node c)
  let env3 := env2.set v_stmt (.node a)
  have e1 : exec (cx U T fuel N) (.set v_label (.construct .Identifier)) ⟨⟨q, [], []⟩, env0⟩ = .ok (.norm, ⟨⟨q, [], []⟩, env1⟩) :=
    step_new (by omega) (by decide)
  have e2 : exec (cx U T fuel N) .next ⟨⟨q, [], []⟩, env1⟩ = .ok (.norm, ⟨⟨q + 1, [], []⟩, env1⟩) := step_next hnc (by omega)
  have e3 : exec (cx U T fuel N) (.set v_colon (.construct .Symbol)) ⟨⟨q + 1, [], []⟩, env1⟩ =
      .ok (.norm, ⟨⟨q + 1, [], []⟩, env2⟩) := step_new (by omega) (by decide)
  have e4 : exec (cx U T fuel N) .next ⟨⟨q + 1, [], []⟩, env2⟩ = .ok (.norm, ⟨⟨q + 2, [], []⟩, env2⟩) := step_next hnc (by omega)
  have e5 : exec (cx U T fuel N) (.set v_stmt (.call .parse_statement [.bool false])) ⟨⟨q + 2, [], []⟩, env2⟩ =
      .ok (.norm, ⟨⟨q + 1 + ws.length, [], []⟩, env3⟩) := by
    simp [exec, evalExp, evalAtoms, evalAtom, hcall, env3, a]
  have e6 : exec (cx U T fuel N) labelTwice ⟨⟨q + 1 + ws.length, [], []⟩, env3⟩ =
      .ok (.norm, ⟨⟨q + 1 + ws.length, [], []⟩, env3⟩) := by
    have hcond : evalCond (cx U T fuel N) ⟨⟨q + 1 + ws.length, [], []⟩, env3⟩ (.hasAnyKey v_stmt [.k_leading_label, .k_colon]) =
        .ok false := by
      have hv : env3 v_stmt = .node a := rfl
      simp only [evalCond, hv]
      rw [hk (q + 2)]
    rw [labelTwice, ite_of hcond]
    rfl
  obtain ⟨s', p1, p2⟩ := label_end hU hnc hA hF (m := m) (j := q + 1 + ws.length) (a := a) (b := b) (c := c)
    (by rw [show q + 1 + ws.length + 1 = q + 2 + ws.length by omega]; exact h1) h2 hm (N := N)
  have hb : exec (cx U T fuel N) Program.parse_labeled_statement.body ⟨⟨q, [], []⟩, env0⟩ =
      exec (cx U T fuel N) labelPost ⟨⟨q + 1 + ws.length, [], []⟩, env3⟩ := by
    rw [label_body, seq_of e1, seq_of e2, seq_of e3, seq_of e4, seq_of e5, seq_of e6]
  have hb := hb.trans p1
  show runBody (cx U T fuel N) Program.parse_labeled_statement _ _ = _
  unfold runBody
  rw [show bindParams Program.parse_labeled_statement.params [.bool true] = env0 from rfl, hb]
  simp only [p2]
  rw [show q + 1 + ws.length + 1 = q + 2 + ws.length by omega, show q + 1 + ws.length + 2 = q + 2 + ws.length + 1 by omega]

/-- A loop with or without a label. -/
theorem label_good {ws : List Str} {node : Nat → Node} (hc : LoopCall U T fuel ws node) (hpos : 1 ≤ ws.length)
    (hk : ∀ q, ((node q).kids.keys.any fun k => [Key.k_leading_label, .k_colon].contains k) = false) (n : Label) {q : Nat}
    (hn : n.Ok U) (hs : StandAt T q (n.before ++ (ws ++ (n.after ++ [";".toList]))))
    (hm : q + (n.before ++ (ws ++ (n.after ++ [";".toList]))).length < T.length) {N : Nat}
    (hN : 4 * (n.before ++ (ws ++ (n.after ++ [";".toList]))).length ≤ N) :
    callN U Program.defs T fuel N .parse_statement [.bool true] ⟨q, [], []⟩ =
      .ok (.node (labelNode T (node (q + n.before.length)) q (q + n.before.length + ws.length) n),
        ⟨q + (n.before ++ (ws ++ (n.after ++ [";".toList]))).length - 1, [], []⟩) := by
  cases n with
  | none =>
    simp only [Label.before, Label.after, List.nil_append, List.length_append, List.length_cons, List.length_nil] at hs hm hN ⊢
    have s2 : StandAt T (q + ws.length) _ := StandAt.right hs
    have := hc q (true, .lit ";".toList) (by simp [loopEnds]) (StandAt.left hs) (wordAt_of hU s2 (by decide)).cell (by omega) N (by omega)
    exact this
  | lead l =>
    simp only [Label.before, Label.after, List.nil_append, List.length_append, List.length_cons, List.length_nil] at hs hm hN ⊢
    have s2 : StandAt T (q + 1 + 1 + ws.length) _ := StandAt.right (StandAt.tail (StandAt.tail hs))
    obtain ⟨N, rfl⟩ : ∃ M, N = M + 2 := ⟨N - 2, by omega⟩
    have := label_call hU hnc hA hF hc hpos hk (m := false) hn hs (by simp)
      (by have := wordAt_of hU s2 (by decide); rw [show q + 1 + 1 + ws.length = q + 1 + ws.length + 1 by omega] at this; exact this)
      (by simp only [Bool.false_eq_true, if_false]; omega) (N := N) (by omega)
    refine this.trans ?_
    congr 3
    simp only [Bool.false_eq_true, if_false]
    omega
  | both l m =>
    simp only [Label.before, Label.after, List.nil_append, List.length_append, List.length_cons, List.length_nil] at hs hm hN ⊢
    have s2 : StandAt T (q + 1 + 1 + ws.length) _ := StandAt.right (StandAt.tail (StandAt.tail hs))
    have s3 := StandAt.tail s2
    obtain ⟨N, rfl⟩ : ∃ M, N = M + 2 := ⟨N - 2, by omega⟩
    have := label_call hU hnc hA hF hc hpos hk (m := true) hn.1 hs (fun _ => name_at hU hn.2 s2)
      (by have := wordAt_of hU s3 (by decide); rw [show q + 1 + 1 + ws.length + 1 = q + 1 + ws.length + 2 by omega] at this; exact this)
      (by simp only [if_true]; omega) (N := N) (by omega)
    refine this.trans ?_
    congr 3
    simp only [if_true]
    omega

theorem good_loop (n : Label) (b : Blocks) (hg : BlocksGood U T fuel b) : BlockCall U T fuel (.loop n b) := by
  intro q hok hs hm N hN
  obtain ⟨hn, hok⟩ : n.Ok U ∧ b.Ok U := hok
  rw [Block.words] at hs hm hN ⊢
  refine (label_good hU hnc hA hF (call_loop hU hnc hA hF b hg hok) (by simp) (fun _ => rfl) n hn hs hm hN).trans ?_
  simp only [Block.tree, List.length_cons, List.length_append, List.length_nil]
  congr 4
  omega

theorem good_rep (n : Label) (b : Blocks) (e : Ex) (hg : BlocksGood U T fuel b) : BlockCall U T fuel (.rep n b e) := by
  intro q hok hs hm N hN
  obtain ⟨hn, hok, he⟩ : n.Ok U ∧ b.Ok U ∧ e.Ok U loosest := hok
  rw [Block.words] at hs hm hN ⊢
  refine (label_good hU hnc hA hF (call_rep hU hnc hA hF b e hg hok he) (by simp) (fun _ => rfl) n hn hs hm hN).trans ?_
  simp only [Block.tree, List.length_cons, List.length_append, List.length_nil]
  congr 4
  omega

theorem good_while (n : Label) (e : Ex) (b : Blocks) (hg : BlocksGood U T fuel b) : BlockCall U T fuel (.while n e b) := by
  intro q hok hs hm N hN
  obtain ⟨hn, he, hok⟩ : n.Ok U ∧ e.Ok U loosest ∧ b.Ok U := hok
  rw [Block.words] at hs hm hN ⊢
  refine (label_good hU hnc hA hF (call_while hU hnc hA hF e b hg he hok) (by simp) (fun _ => rfl) n hn hs hm hN).trans ?_
  simp only [Block.tree, List.length_cons, List.length_append, List.length_nil]
  congr 4
  omega

end
end Verif.Sym
