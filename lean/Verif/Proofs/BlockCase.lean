import Verif.Proofs.BlockBase
/-! `CASE` statements give their trees. -/
namespace Verif.Sym
open Core Interp Spec
open Slow (StandAt)

/-- The call for an expression. -/
def exprCall : Exp := .call .parse_expr [.nat usizeMax, .bool false, .bool false, .bool false, .bool true]

/-- `parse_case_statement`: a branch. -/
def caseArm : Cmd := .ite (.up (.lit 1) [.WHEN])
  (.seq .next (.seq (.set v_when (.construct .CaseStatementArm)) (.seq .next (.seq (.push v_when .k_expr exprCall)
    (.seq .next (.seq (.push v_when .k_then (.construct .Keyword)) (.seq (.set v_stmts .nilVec)
      (.seq (.loop (stmtLoop (.up (.lit 1) [.WHEN, .ELSE, .END]))) (.seq (.pushVec v_when .k_stmts (.var v_stmts))
        (.append v_arms (.var v_when))))))))))) .brk

/-- `parse_case_statement`: the last branch. -/
def caseElseCmd : Cmd := .ite (.up (.lit 1) [.ELSE])
  (.seq .next (.seq (.set v_else_ (.construct .CaseStatementArm)) (.seq (.set v_stmts .nilVec)
    (.seq (.loop (stmtLoop (.up (.lit 1) [.END]))) (.seq (.pushVec v_else_ .k_stmts (.var v_stmts))
      (.append v_arms (.var v_else_))))))) .skip

theorem case_body : Program.parse_case_statement.body = .seq (.set v_case (.construct .CaseStatement))
    (.seq (.ite (.not (.up (.lit 1) [.WHEN])) (.seq .next (.push v_case .k_expr exprCall)) .skip) (.seq (.set v_arms .nilVec)
      (.seq (.loop caseArm) (.seq caseElseCmd casePost)))) := rfl

/-- A state of `parse_case_statement`. -/
structure CaseSt (n : Node) (v : List Node) (j : Nat) (s : St) : Prop where
  ps : s.ps = ⟨j, [], []⟩
  case : s.env v_case = .node n
  arms : s.env v_arms = .vec v
  semicolon : s.env v_semicolon = .bool true

theorem ite_of {C : Ctx} {c : Cond} {a b : Cmd} {s : St} {r : Bool} (h : evalCond C s c = .ok r) :
    exec C (.ite c a b) s = exec C (if r then a else b) s := by
  cases r <;> simp [exec, h]

theorem not_of {C : Ctx} {c : Cond} {s : St} {r : Bool} (h : evalCond C s c = .ok r) : evalCond C s (.not c) = .ok (!r) := by
  simp only [evalCond, h]
  rfl

section
variable {U : Unicode} (hU : U.Lawful) {T : List Token} (hnc : ∀ t ∈ T, t.isComment = false) (hA : Lex.Apart T) {fuel : Nat}
  (hF : T.length + 1 ≤ fuel)

include hnc in
theorem step_next {N j : Nat} {env : Env} (h : j + 1 < T.length) :
    exec (cx U T fuel N) .next ⟨⟨j, [], []⟩, env⟩ = .ok (.norm, ⟨⟨j + 1, [], []⟩, env⟩) := by
  have := next_plain hnc h
  simp [exec, this]

theorem step_new {N q : Nat} {env : Env} {x : Var} {ty : NodeType} (h : q < T.length) (hty : ty ≠ .EOF ∧ ty ≠ .Unknown) :
    exec (cx U T fuel N) (.set x (.construct ty)) ⟨⟨q, [], []⟩, env⟩ =
      .ok (.norm, ⟨⟨q, [], []⟩, env.set x (.node (leaf T ty q))⟩) := by
  have := construct_leaf (U := U) h hty
  simp [exec, evalExp, this]

theorem step_push_new {N q : Nat} {env : Env} {x : Var} {k : Key} {n : Node} {ty : NodeType} (h : q < T.length)
    (hty : ty ≠ .EOF ∧ ty ≠ .Unknown) (hx : env x = .node n) :
    exec (cx U T fuel N) (.push x k (.construct ty)) ⟨⟨q, [], []⟩, env⟩ =
      .ok (.norm, ⟨⟨q, [], []⟩, env.set x (.node (n.pushNode k (leaf T ty q)))⟩) := by
  have := construct_leaf (U := U) h hty
  simp [exec, evalExp, this, hx]

theorem step_pushVec {N q : Nat} {env : Env} {x y : Var} {k : Key} {n : Node} {ns : List Node} (hx : env x = .node n)
    (hy : env y = .vec ns) : exec (cx U T fuel N) (.pushVec x k (.var y)) ⟨⟨q, [], []⟩, env⟩ =
      .ok (.norm, ⟨⟨q, [], []⟩, env.set x (.node (n.pushVec k ns))⟩) := by
  simp [exec, evalExp, hx, hy]

theorem step_append {N q : Nat} {env : Env} {x y : Var} {n : Node} {ns : List Node} (hx : env x = .vec ns)
    (hy : env y = .node n) : exec (cx U T fuel N) (.append x (.var y)) ⟨⟨q, [], []⟩, env⟩ =
      .ok (.norm, ⟨⟨q, [], []⟩, env.set x (.vec (ns ++ [n]))⟩) := by
  simp [exec, evalExp, hx, hy]

include hU hnc hA hF in
theorem step_expr {N q : Nat} {env : Env} {x : Var} {k : Key} {n : Node} {e : Ex} {l : Str} (hok : e.Ok U loosest)
    (hs : StandAt T q e.words) (hw : WordAt U T (q + e.words.length) l) (hm : q + e.words.length + 1 < T.length)
    (hl : (Base.lit l).prec = some loosest ∧ .lit l ∈ nameNexts) (hN : 4 * e.words.length ≤ N) (hx : env x = .node n) :
    exec (cx U T fuel N) (.push x k exprCall) ⟨⟨q, [], []⟩, env⟩ =
      .ok (.norm, ⟨⟨q + e.words.length - 1, [], []⟩, env.set x (.node (n.pushNode k (e.tree T q)))⟩) := by
  have hcall := call_of_spine hU hnc hA hF (ex_good hU hnc hA hF e) q loosest loosest _ hs (hw.follow hm hl.1) hl.2
    (closes_loosest e hok) hok (by decide) (Nat.le_refl _) (Nat.le_refl _) N (by omega) false (.inr rfl)
  have hcall : callN U Program.defs T fuel N .parse_expr [.nat usizeMax, .bool false, .bool false, .bool false, .bool true]
      ⟨q, [], []⟩ = _ := hcall
  simp [exec, evalExp, exprCall, evalAtoms, evalAtom, hcall, hx]

include hnc in
theorem cond_next {N j : Nat} {env : Env} {l : Str} {ks : List Kw} {r : Bool} (hw : WordAt U T (j + 1) l)
    (hl : (tk l).inKws U0 ks = r) : evalCond (cx U T fuel N) ⟨⟨j, [], []⟩, env⟩ (.up (.lit 1) ks) = .ok r := by
  obtain ⟨t, h1, h2⟩ := hw
  have : t.inKws U ks = r := by rw [h2.inKws, hl]
  simp [evalCond, offTok, evalOff, getToken_next hnc h1, this]

include hU hnc hF in
theorem step_stmts {N j : Nat} {env : Env} {ks : List Kw} {b : Blocks} {l : Str} (hks : blockHeads.all (fun l => !(tk l).inKws U0 ks) = true)
    (hg : BlocksGood U T fuel b) (hok : b.Ok U) (hs : StandAt T (j + 1) b.words) (hw : WordAt U T (j + 1 + b.words.length) l)
    (hl : (tk l).inKws U0 ks = true) (hN : 4 * b.words.length ≤ N) :
    exec (cx U T fuel N) (.loop (stmtLoop (.up (.lit 1) ks))) ⟨⟨j, [], []⟩, env.set v_stmts (.vec [])⟩ =
      .ok (.norm, ⟨⟨j + b.words.length, [], []⟩, env.set v_stmts (.vec (b.trees T (j + 1)))⟩) := by
  have hlt : j + 1 + b.words.length < T.length := (List.getElem?_eq_some_iff.1 hw.choose_spec.1).1
  exact loop_stmts hU hnc (c := .up (.lit 1) ks) (ks := ks) (env := env) (N := N) (by
    intro j acc t ht
    simp [evalCond, offTok, evalOff, getToken_next hnc ht]) hks b j fuel [] l hg hok hs hw hl hN (by omega)

include hU hnc hA hF

/-- What stands after a branch of `CASE`. -/
theorem arm_next {br : Branches} {q : Nat} (hs : StandAt T q br.armWords) {l : Str} (hw : WordAt U T (q + br.armWords.length) l)
    (hl : l = "ELSE".toList ∨ l = "END".toList) :
    ∃ l', WordAt U T q l' ∧ (l' = "WHEN".toList ∨ l' = "ELSE".toList ∨ l' = "END".toList) := by
  cases br with
  | nil => exact ⟨l, hw, .inr hl⟩
  | cons e b br => exact ⟨_, wordAt_of hU (by simpa only [Branches.armWords] using hs) (by decide), .inl rfl⟩

theorem arm_step {N j : Nat} {n : Node} {v : List Node} {s : St} {e : Ex} {b : Blocks} {l : Str} (hst : CaseSt n v j s)
    (he : e.Ok U loosest) (hok : b.Ok U) (hg : BlocksGood U T fuel b)
    (hs : StandAt T (j + 1) ("WHEN".toList :: (e.words ++ "THEN".toList :: b.words)))
    (hw : WordAt U T (j + 1 + 1 + e.words.length + 1 + b.words.length) l)
    (hl : l = "WHEN".toList ∨ l = "ELSE".toList ∨ l = "END".toList) (hN : 4 * (e.words.length + b.words.length) ≤ N) :
    ∃ s', exec (cx U T fuel N) caseArm s = .ok (.norm, s') ∧
      CaseSt n (v ++ [(((leaf T .CaseStatementArm (j + 1)).pushNode .k_expr (e.tree T (j + 1 + 1))).pushNode .k_then
        (leaf T .Keyword (j + 1 + 1 + e.words.length))).pushVec .k_stmts (b.trees T (j + 1 + 1 + e.words.length + 1))])
        (j + 1 + 1 + e.words.length + b.words.length) s' := by
  have hep := words_pos e he
  have hlt : j + 1 + 1 + e.words.length + 1 + b.words.length < T.length := (List.getElem?_eq_some_iff.1 hw.choose_spec.1).1
  have s1 := StandAt.tail hs
  have s2 : StandAt T (j + 1 + 1 + e.words.length) _ := StandAt.right s1
  have s3 := StandAt.tail s2
  obtain ⟨⟨j', ls, ts⟩, env⟩ := s
  obtain ⟨h1, h2, h3, h4⟩ := hst
  cases h1
  dsimp only at h2 h3 h4
  unfold caseArm
  let w0 := leaf T .CaseStatementArm (j + 1)
  let w1 := w0.pushNode .k_expr (e.tree T (j + 1 + 1))
  let w2 := w1.pushNode .k_then (leaf T .Keyword (j + 1 + 1 + e.words.length))
  let w3 := w2.pushVec .k_stmts (b.trees T (j + 1 + 1 + e.words.length + 1))
  let E (w : Node) : Env := env.set v_when (.node w)
  let bs := b.trees T (j + 1 + 1 + e.words.length + 1)
  have c1 := step_next (U := U) (fuel := fuel) (N := N) (env := env) hnc (j := j) (by omega)
  have c2 := step_new (U := U) (fuel := fuel) (T := T) (N := N) (env := env) (x := v_when) (q := j + 1) (ty := .CaseStatementArm) (by omega) (by decide)
  have c3 := step_next (U := U) (fuel := fuel) (N := N) (env := E w0) hnc (j := j + 1) (by omega)
  have c4 := step_expr hU hnc hA hF (N := N) (env := E w0) (x := v_when) (k := .k_expr) (n := w0) he (StandAt.left s1)
    (wordAt_of hU s2 (by decide)) (by omega) (by decide +kernel) (by omega) rfl
  rw [show (E w0).set v_when (.node (w0.pushNode .k_expr (e.tree T (j + 1 + 1)))) = E w1 from set_set _ _ _ _] at c4
  have c5 := step_next (U := U) (fuel := fuel) (N := N) (env := E w1) hnc (j := j + 1 + 1 + e.words.length - 1) (by omega)
  rw [show j + 1 + 1 + e.words.length - 1 + 1 = j + 1 + 1 + e.words.length by omega] at c5
  have c6 := step_push_new (U := U) (fuel := fuel) (T := T) (N := N) (env := E w1) (x := v_when) (k := .k_then) (n := w1) (ty := .Keyword)
    (q := j + 1 + 1 + e.words.length) (by omega) (by decide) rfl
  rw [show (E w1).set v_when (.node (w1.pushNode .k_then (leaf T .Keyword (j + 1 + 1 + e.words.length)))) = E w2
    from set_set _ _ _ _] at c6
  have c7 : exec (cx U T fuel N) (.set v_stmts .nilVec) ⟨⟨j + 1 + 1 + e.words.length, [], []⟩, E w2⟩ =
      .ok (.norm, ⟨⟨j + 1 + 1 + e.words.length, [], []⟩, (E w2).set v_stmts (.vec [])⟩) := rfl
  have c8 := step_stmts hU hnc hF (N := N) (env := E w2) (ks := [.WHEN, .ELSE, .END]) (by decide +kernel) hg hok s3 hw
    (by rcases hl with rfl | rfl | rfl <;> decide +kernel) (by omega)
  have c9 := step_pushVec (U := U) (fuel := fuel) (T := T) (N := N) (q := j + 1 + 1 + e.words.length + b.words.length)
    (env := (E w2).set v_stmts (.vec bs)) (x := v_when) (y := v_stmts) (k := .k_stmts) (n := w2) (ns := bs) rfl rfl
  have c10 := step_append (U := U) (fuel := fuel) (T := T) (N := N) (q := j + 1 + 1 + e.words.length + b.words.length)
    (env := ((E w2).set v_stmts (.vec bs)).set v_when (.node w3)) (x := v_arms) (y := v_when) (n := w3) (ns := v) h3 rfl
  refine ⟨⟨⟨j + 1 + 1 + e.words.length + b.words.length, [], []⟩,
    (((E w2).set v_stmts (.vec bs)).set v_when (.node w3)).set v_arms (.vec (v ++ [w3]))⟩, ?_, rfl, h2, rfl, h4⟩
  refine (ite_of (cond_next hnc (wordAt_of hU hs (by decide))
    (show (tk "WHEN".toList).inKws U0 [.WHEN] = true by decide +kernel))).trans ?_
  rw [if_pos rfl, seq_of c1, seq_of c2, seq_of c3, seq_of c4, seq_of c5, seq_of c6, seq_of c7, seq_of c8, seq_of c9]
  exact c10

/-- The branches are parsed. -/
theorem loop_arms {N : Nat} : ∀ (br : Branches) (j : Nat) (n : Node) (v : List Node) (s : St) (l : Str),
    BranchesGood U T fuel br → br.Ok U → StandAt T (j + 1) br.armWords → WordAt U T (j + 1 + br.armWords.length) l →
    (l = "ELSE".toList ∨ l = "END".toList) → 4 * br.armWords.length ≤ N → CaseSt n v j s →
    ∃ k s', k ≤ br.armWords.length ∧
      (∀ m, iterate (exec (cx U T fuel N) caseArm) (m + k) s = iterate (exec (cx U T fuel N) caseArm) m s') ∧
      CaseSt n (v ++ br.arms T (j + 1)) (j + br.armWords.length) s'
  | .nil, j, n, v, s, l, _, _, _, _, _, _, hst => by
    refine ⟨0, s, Nat.zero_le _, fun m => rfl, ?_⟩
    simpa [Branches.arms, Branches.armWords] using hst
  | .cons e b br, j, n, v, s, l, hg, hok, hs, hw, hl, hN, hst => by
    simp only [Branches.armWords, List.length_cons, List.length_append] at hs hw hN ⊢
    obtain ⟨he, hok, hok'⟩ : e.Ok U loosest ∧ b.Ok U ∧ br.Ok U := hok
    have s1 : StandAt T (j + 1) (("WHEN".toList :: (e.words ++ "THEN".toList :: b.words)) ++ br.armWords) := by
      simpa using hs
    have e1 : j + 1 + ("WHEN".toList :: (e.words ++ "THEN".toList :: b.words)).length = j + 1 + 1 + e.words.length + 1 + b.words.length := by
      simp; omega
    have s2 := StandAt.right s1
    rw [e1] at s2
    have hw' : WordAt U T (j + 1 + 1 + e.words.length + 1 + b.words.length + br.armWords.length) l := by
      have : j + 1 + 1 + e.words.length + 1 + b.words.length + br.armWords.length =
        j + 1 + (e.words.length + (b.words.length + br.armWords.length + 1) + 1) := by omega
      rw [this]; exact hw
    obtain ⟨l', w1, w2⟩ := arm_next hU hnc hA hF s2 hw' hl
    obtain ⟨s', k1, k2⟩ := arm_step hU hnc hA hF (N := N) hst he hok hg.1 (StandAt.left s1) w1 w2 (by omega)
    have e2 : j + 1 + 1 + e.words.length + b.words.length + 1 = j + 1 + 1 + e.words.length + 1 + b.words.length := by omega
    obtain ⟨k, s'', m1, m2, m3⟩ := loop_arms (N := N) br _ _ _ s' l hg.2 hok' (by rw [e2]; exact s2) (by rw [e2]; exact hw') hl
      (by omega) k2
    refine ⟨k + 1, s'', by omega, fun m => ?_, ?_⟩
    · rw [← Nat.add_assoc, iterate_norm k1, m2]
    · rw [e2, show j + 1 + 1 + e.words.length + b.words.length + br.armWords.length =
        j + (e.words.length + (b.words.length + br.armWords.length + 1) + 1) by omega] at m3
      simpa only [Branches.arms, List.append_assoc, List.singleton_append] using m3

/-- `END CASE;` -/
theorem case_end {N j : Nat} {n : Node} {v : List Node} {s : St} (hst : CaseSt n v j s)
    (hs : StandAt T (j + 1) ["END".toList, "CASE".toList, ";".toList]) (hm : j + 4 < T.length) (hN : 2 ≤ N) :
    ∃ s', exec (cx U T fuel N) casePost s = .ok (.ret (.node (endNode T (n.pushVec .k_arms v) .k_end_case (j + 1))), s') ∧
      s'.ps = ⟨j + 3, [], []⟩ := by
  let I : Itp := ⟨U, T, [j, j + 1, j + 2, j + 3], fun _ => n, fun _ => v, 0, true, []⟩
  have s2 := StandAt.tail hs
  have s3 := StandAt.tail s2
  have hL : Lay U T I.H I.V fuel 0 wCaseEnd.cells I.pos := by
    refine lay_cell bare_ok rfl (by omega) rfl rfl ?_
    refine lay_cell (wordAt_of hU hs (by decide)).cell rfl (by omega) rfl rfl ?_
    refine lay_cell (wordAt_of hU s2 (by decide)).cell rfl (by omega) rfl rfl ?_
    exact lay_last (wordAt_of hU s3 (by decide)).cell rfl (by omega)
  have hr : rounds = 4 := rfl
  have hR : RS I ⟨0, caseEnv⟩ s := by
    refine ⟨by rw [hst.ps]; rfl, ?_⟩
    intro x
    unfold caseEnv
    simp only [abind, AEnv.set]
    split
    · rename_i hx; subst hx; rw [hst.case]; rfl
    · split
      · rename_i hx; subst hx; rw [hst.arms]; rfl
      · split
        · rename_i hx; subst hx; exact hst.semicolon
        · trivial
  have hchk : checkCaseEnd = true := case_ok.2
  unfold checkCaseEnd retAt at hchk
  split at hchk
  case h_2 => cases hchk
  rename_i t' as hae
  simp only [Bool.and_eq_true, beq_iff_eq] at hchk
  have hV := view_win hU hnc hA hF (I := I) rfl rfl hL rfl
  obtain ⟨fl, s', k1, k2, k3⟩ := exec_sound (C := cx U T fuel N) hV rfl rfl
    (call_sound hV (by omega) (gapOk_of hL) 2 N (by omega)) (show rounds ≤ fuel by omega) casePost hR hae
  cases fl with
  | norm => exact k2.elim
  | brk => exact k2.elim
  | ret w =>
    have hw : w = .node ((t'.ev I).1) := k2
    refine ⟨s', ?_, by rw [k3.ps, hchk.2]; rfl⟩
    rw [k1, hw, ← Term.ev_norm, hchk.1]
    rfl

/-- `ELSE … END CASE;` -/
theorem case_else {N j : Nat} {n : Node} {v : List Node} {s : St} (hst : CaseSt n v j s) (c : Blocks) (hg : BlocksGood U T fuel c)
    (hok : c.Ok U) (hs : StandAt T (j + 1) ("ELSE".toList :: (c.words ++ ["END".toList, "CASE".toList, ";".toList])))
    (hm : j + 1 < T.length) (hN : 4 * c.words.length ≤ N) :
    ∃ s', exec (cx U T fuel N) caseElseCmd s = .ok (.norm, s') ∧
      CaseSt n (v ++ [bodyNode T .CaseStatementArm (j + 1) (c.trees T (j + 1 + 1))]) (j + 1 + c.words.length) s' := by
  have s1 := StandAt.tail hs
  have s2 : StandAt T (j + 1 + 1 + c.words.length) _ := StandAt.right s1
  obtain ⟨⟨j', ls, ts⟩, env⟩ := s
  obtain ⟨h1, h2, h3, h4⟩ := hst
  cases h1
  dsimp only at h2 h3 h4
  unfold caseElseCmd
  let w0 := leaf T .CaseStatementArm (j + 1)
  let bs := c.trees T (j + 1 + 1)
  let w1 := bodyNode T .CaseStatementArm (j + 1) bs
  let E : Env := env.set v_else_ (.node w0)
  have c1 := step_next (U := U) (fuel := fuel) (N := N) (env := env) hnc (j := j) (by omega)
  have c2 := step_new (U := U) (fuel := fuel) (T := T) (N := N) (env := env) (x := v_else_) (q := j + 1) (ty := .CaseStatementArm) (by omega) (by decide)
  have c3 : exec (cx U T fuel N) (.set v_stmts .nilVec) ⟨⟨j + 1, [], []⟩, E⟩ =
      .ok (.norm, ⟨⟨j + 1, [], []⟩, E.set v_stmts (.vec [])⟩) := rfl
  have c4 := step_stmts hU hnc hF (N := N) (env := E) (ks := [.END]) (by decide +kernel) hg hok (StandAt.left s1)
    (wordAt_of hU s2 (by decide)) (by decide +kernel) hN
  have c5 := step_pushVec (U := U) (fuel := fuel) (T := T) (N := N) (q := j + 1 + c.words.length)
    (env := E.set v_stmts (.vec bs)) (x := v_else_) (y := v_stmts) (k := .k_stmts) (n := w0) (ns := bs) rfl rfl
  have c6 := step_append (U := U) (fuel := fuel) (T := T) (N := N) (q := j + 1 + c.words.length)
    (env := (E.set v_stmts (.vec bs)).set v_else_ (.node w1)) (x := v_arms) (y := v_else_) (n := w1) (ns := v) h3 rfl
  refine ⟨⟨⟨j + 1 + c.words.length, [], []⟩,
    ((E.set v_stmts (.vec bs)).set v_else_ (.node w1)).set v_arms (.vec (v ++ [w1]))⟩, ?_, rfl, h2, rfl, h4⟩
  refine (ite_of (cond_next hnc (wordAt_of hU hs (by decide))
    (show (tk "ELSE".toList).inKws U0 [.ELSE] = true by decide +kernel))).trans ?_
  rw [if_pos rfl, seq_of c1, seq_of c2, seq_of c3, seq_of c4]
  refine (seq_of c5).trans ?_
  exact c6

/-- `CASE` up to `ELSE` or `END`, and what follows it. -/
theorem call_case {e : Option Ex} {br : Branches} {rest : List Str} {l : Str} {q : Nat} (he : ∀ x, e = some x → x.Ok U loosest)
    (hne : br ≠ .nil) (hok : br.Ok U) (hg : BranchesGood U T fuel br)
    (hs : StandAt T q ("CASE".toList :: (optWords e ++ (br.armWords ++ l :: rest))))
    (hl : l = "ELSE".toList ∨ l = "END".toList) (hm : q + ((optWords e).length + br.armWords.length) + 3 < T.length) {M : Nat}
    (hN : 4 * ((optWords e).length + br.armWords.length) ≤ M) {r : Node} {j : Nat} (hj : j + 1 < T.length)
    (hpost : ∀ s, CaseSt (caseHead T q e) (br.arms T (q + 1 + (optWords e).length)) (q + (optWords e).length + br.armWords.length) s →
      ∃ s', exec (cx U T fuel M) (.seq caseElseCmd casePost) s = .ok (.ret (.node r), s') ∧ s'.ps = ⟨j, [], []⟩) :
    callN U Program.defs T fuel (M + 2) .parse_statement [.bool true] ⟨q, [], []⟩ = .ok (.node r, ⟨j, [], []⟩) := by
  have s1 := StandAt.tail hs
  have s2 : StandAt T (q + 1 + (optWords e).length) _ := StandAt.right s1
  have s3 : StandAt T (q + 1 + (optWords e).length + br.armWords.length) _ := StandAt.right s2
  have hlv : l ∈ vocab := by rcases hl with rfl | rfl <;> decide
  have hw := wordAt_of hU s3 hlv
  have hwhen : WordAt U T (q + 1 + (optWords e).length) "WHEN".toList := by
    cases br with
    | nil => exact absurd rfl hne
    | cons x b br =>
      rw [Branches.armWords] at s2
      exact wordAt_of hU s2 (by decide)
  have hr : rounds = 4 := rfl
  have hnext : ∃ t, T[q + 1]? = some t ∧ ∃ b ∈ Base.lit "WHEN".toList :: firsts, IsBase U T (q + 1) t b := by
    cases e with
    | none =>
      obtain ⟨t, h1, h2⟩ := hwhen
      exact ⟨t, h1, _, List.mem_cons_self .., h2⟩
    | some e =>
      obtain ⟨t, f1, f2, f3, f4, _⟩ := first_of hU e (he e rfl) (StandAt.left s1)
      exact ⟨t, f1, f2, List.mem_cons_of_mem _ f3, f4⟩
  refine dispatch hnc hA (b := .lit "CASE".toList) (f := .parse_case_statement) case_ok.1 (wordAt_of hU hs (by decide)).cell hnext
    (by omega) hj (by omega) ?_
  let env0 : Env := bindParams [v_semicolon] [.bool true]
  have hhead : exec (cx U T fuel M) (.ite (.not (.up (.lit 1) [.WHEN])) (.seq .next (.push v_case .k_expr exprCall)) .skip)
      ⟨⟨q, [], []⟩, env0.set v_case (.node (leaf T .CaseStatement q))⟩ =
      .ok (.norm, ⟨⟨q + (optWords e).length, [], []⟩, env0.set v_case (.node (caseHead T q e))⟩) := by
    cases e with
    | none =>
      have := cond_next (U := U) (fuel := fuel) (N := M) hnc (j := q) (env := env0.set v_case (.node (leaf T .CaseStatement q))) hwhen
        (show (tk "WHEN".toList).inKws U0 [.WHEN] = true by decide +kernel)
      have hc' : evalCond (cx U T fuel M) ⟨⟨q, [], []⟩, env0.set v_case (.node (leaf T .CaseStatement q))⟩
          (.not (.up (.lit 1) [.WHEN])) = .ok false := by
        exact not_of this
      exact ite_of hc'
    | some e =>
      have hok := he e rfl
      have hep := words_pos e hok
      obtain ⟨t, f1, f2, f3, f4, _⟩ := first_of hU e hok (StandAt.left s1)
      have hc : evalCond (cx U T fuel M) ⟨⟨q, [], []⟩, env0.set v_case (.node (leaf T .CaseStatement q))⟩ (.up (.lit 1) [.WHEN]) =
          .ok false := by
        have : t.inKws U [.WHEN] = false := by
          rw [IsBase.inKws f4]
          have : ∀ b ∈ firsts, b.inKws [.WHEN] = false := by decide +kernel
          exact this _ f3
        simp [evalCond, offTok, evalOff, getToken_next hnc f1, this]
      have hc' : evalCond (cx U T fuel M) ⟨⟨q, [], []⟩, env0.set v_case (.node (leaf T .CaseStatement q))⟩
          (.not (.up (.lit 1) [.WHEN])) = .ok true := by
        exact not_of hc
      refine (ite_of hc').trans ?_
      have hx := step_expr hU hnc hA hF (N := M) (k := .k_expr) (env := env0.set v_case (.node (leaf T .CaseStatement q)))
        (x := v_case) (n := leaf T .CaseStatement q) hok (StandAt.left s1) hwhen (by simp only [optWords] at hm ⊢; omega)
        (by decide +kernel) (by simp only [optWords] at hN; omega) rfl
      refine (seq_of (step_next hnc (by omega))).trans ?_
      rw [hx, set_set]
      simp only [optWords, caseHead]
      rw [show q + 1 + e.words.length - 1 = q + e.words.length by omega]
  have hst : CaseSt (caseHead T q e) [] (q + (optWords e).length)
      ⟨⟨q + (optWords e).length, [], []⟩, (env0.set v_case (.node (caseHead T q e))).set v_arms (.vec [])⟩ :=
    ⟨rfl, rfl, rfl, rfl⟩
  have e1 : q + (optWords e).length + 1 = q + 1 + (optWords e).length := by omega
  obtain ⟨k, sl, m1, m2, m3⟩ := loop_arms hU hnc hA hF (N := M) br _ _ _ _ l hg hok (by rw [e1]; exact StandAt.left s2)
    (by rw [e1]; exact hw) hl (by omega) hst
  rw [e1, List.nil_append] at m3
  obtain ⟨s', p1, p2⟩ := hpost sl m3
  have hloop : exec (cx U T fuel M) (.loop caseArm)
      ⟨⟨q + (optWords e).length, [], []⟩, (env0.set v_case (.node (caseHead T q e))).set v_arms (.vec [])⟩ = .ok (.norm, sl) := by
    show iterate _ fuel _ = _
    have := m2 (fuel - k)
    rw [Nat.sub_add_cancel (by omega)] at this
    rw [this]
    obtain ⟨f, hf⟩ : ∃ f, fuel - k = f + 1 := ⟨fuel - k - 1, by omega⟩
    have hb : exec (cx U T fuel M) caseArm sl = .ok (.brk, sl) := by
      obtain ⟨ps, env⟩ := sl
      have h1 := m3.ps
      dsimp only at h1
      subst h1
      unfold caseArm
      simp only [exec, cond_next (U := U) (fuel := fuel) (N := M) (env := env) hnc (l := l) (r := false) (ks := [.WHEN])
        (j := q + (optWords e).length + br.armWords.length)
        (by rw [show q + (optWords e).length + br.armWords.length + 1 = q + 1 + (optWords e).length + br.armWords.length by omega]
            exact hw) (by rcases hl with rfl | rfl <;> decide +kernel)]
    rw [hf]
    simp only [iterate, hb]
  show runBody (cx U T fuel M) Program.parse_case_statement _ _ = _
  unfold runBody
  have : exec (cx U T fuel M) Program.parse_case_statement.body ⟨⟨q, [], []⟩, env0⟩ = .ok (.ret (.node r), s') := by
    rw [case_body, seq_of (step_new (by omega) (by decide)), seq_of hhead, seq_of (s1 := ⟨_, Env.set _ v_arms (.vec [])⟩) rfl,
      seq_of hloop, p1]
  rw [show Program.parse_case_statement.params = [v_semicolon] from rfl, this]
  simp only [p2]

theorem good_case (e : Option Ex) (br : Branches) (hg : BranchesGood U T fuel br) : BlockCall U T fuel (.case e br) := by
  intro q hok hs hm N hN
  obtain ⟨he, hne, hok⟩ : (∀ x, e = some x → x.Ok U loosest) ∧ br ≠ .nil ∧ br.Ok U := hok
  simp only [Block.words, List.length_cons, List.length_append, List.length_nil] at hs hm hN ⊢
  have s1 := StandAt.tail hs
  have s2 : StandAt T (q + 1 + (optWords e).length) _ := StandAt.right s1
  have s3 : StandAt T (q + 1 + (optWords e).length + br.armWords.length) _ := StandAt.right s2
  obtain ⟨M, rfl⟩ : ∃ M, N = M + 2 := ⟨N - 2, by omega⟩
  have e1 : q + (optWords e).length + br.armWords.length + 1 = q + 1 + (optWords e).length + br.armWords.length := by omega
  refine call_case hU hnc hA hF he hne hok hg hs (.inr rfl) (by omega) (by omega) (by omega) fun s hst => ?_
  obtain ⟨s', h1, h2⟩ := case_end hU hnc hA hF (N := M) hst (by rw [e1]; exact s3) (by omega) (by omega)
  rw [e1] at h1
  refine ⟨s', ?_, ?_⟩
  · have hb : exec (cx U T fuel M) caseElseCmd s = .ok (.norm, s) := by
      obtain ⟨ps, env⟩ := s
      have h1 := hst.ps
      dsimp only at h1
      subst h1
      unfold caseElseCmd
      simp only [exec, cond_next (U := U) (fuel := fuel) (N := M) (env := env) hnc (l := "END".toList) (r := false) (ks := [.ELSE])
        (j := q + (optWords e).length + br.armWords.length) (by rw [e1]; exact wordAt_of hU s3 (by decide)) (by decide +kernel)]
    rw [seq_of hb]
    exact h1
  · rw [h2]
    congr 1
    omega

theorem good_caseElse (e : Option Ex) (br : Branches) (c : Blocks) (hg : BranchesGood U T fuel br) (hgc : BlocksGood U T fuel c) :
    BlockCall U T fuel (.caseElse e br c) := by
  intro q hok hs hm N hN
  obtain ⟨he, hne, hok, hokc⟩ : (∀ x, e = some x → x.Ok U loosest) ∧ br ≠ .nil ∧ br.Ok U ∧ c.Ok U := hok
  simp only [Block.words, List.length_cons, List.length_append, List.length_nil] at hs hm hN ⊢
  have s1 := StandAt.tail hs
  have s2 : StandAt T (q + 1 + (optWords e).length) _ := StandAt.right s1
  have s3 : StandAt T (q + 1 + (optWords e).length + br.armWords.length) _ := StandAt.right s2
  have s4 : StandAt T (q + 1 + (optWords e).length + br.armWords.length + 1 + c.words.length) _ := StandAt.right (StandAt.tail s3)
  obtain ⟨M, rfl⟩ : ∃ M, N = M + 2 := ⟨N - 2, by omega⟩
  have e1 : q + (optWords e).length + br.armWords.length + 1 = q + 1 + (optWords e).length + br.armWords.length := by omega
  refine call_case hU hnc hA hF he hne hok hg hs (.inl rfl) (by omega) (by omega) (by omega) fun s hst => ?_
  obtain ⟨s1, g1, g2⟩ := case_else hU hnc hA hF (N := M) hst c hgc hokc (by rw [e1]; exact s3) (by omega) (by omega)
  have e2 : q + (optWords e).length + br.armWords.length + 1 + c.words.length + 1 =
    q + 1 + (optWords e).length + br.armWords.length + 1 + c.words.length := by omega
  obtain ⟨s', h1, h2⟩ := case_end hU hnc hA hF (N := M) g2 (by rw [e2]; exact s4) (by omega) (by omega)
  rw [e2, e1] at h1
  refine ⟨s', ?_, ?_⟩
  · rw [seq_of g1]
    exact h1
  · rw [h2]
    congr 1
    omega

end
end Verif.Sym
