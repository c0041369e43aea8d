import Verif.Proofs.OrderExp
/-! Soundness of the source order analysis: commands. -/
namespace Verif.OI
open Core Spec Interp

variable {ru : Rules} {toks : List Token} {st : Nat} {AL AR : List Token} {a b : OState} {B : Bools} {R : Val}

theorem Ok.merge {s : St} {l m : List OState} (h : OI.merge l = .ok m)
    (hi : ∃ a ∈ l, Ok ru toks st AL AR B R a s) : ∃ a ∈ m, Ok ru toks st AL AR B R a s := by
  obtain ⟨a, ha, hs, hB, val, hval, hR, hi⟩ := hi
  obtain ⟨t, ht, h'⟩ := merge_spec h ha hi
  exact ⟨t, ht, hs, hB, val, hval, hR, h'⟩

theorem Ok.statesLe {s : St} {l m : List OState} (h : OI.statesLe l m = true)
    (hi : ∃ a ∈ l, Ok ru toks st AL AR B R a s) : ∃ a ∈ m, Ok ru toks st AL AR B R a s := by
  obtain ⟨a, ha, hs, hB, val, hval, hR, hi⟩ := hi
  obtain ⟨t, ht, h'⟩ := statesLe_spec h ha hi
  exact ⟨t, ht, hs, hB, val, hval, hR, h'⟩

/-- Values after an assignment to the local variables. -/
def lift (val : Var → Val) (env : Env) : Var → Val := fun y => if low y = true then env y else val y

theorem lift_low {val : Var → Val} {env : Env} {x : Var} (h : low x = true) : lift val env x = env x := if_pos h

theorem lift_rest {val : Var → Val} {env : Env} : lift val env REST = val REST := if_neg (by decide)

theorem lift_set {val : Var → Val} {env : Env} {x y : Var} {v : Val} (h : ∀ x, low x = true → val x = env x)
    (hy : y ≠ x) : lift val (env.set x v) y = val y := by
  unfold lift
  split
  · next hl => rw [set_other hy, h y hl]
  · rfl

theorem lift_self {val : Var → Val} {env : Env} {x : Var} {v : Val} (h : low x = true) :
    lift val (env.set x v) x = v := by
  rw [lift_low h, set_self]

/-- How a command may end. -/
def FlowOk (ru : Rules) (toks : List Token) (st : Nat) (AL AR : List Token) (B : Bools) (R : Val) (o : OOut) :
    Flow → St → Prop
  | .norm, s => ∃ a ∈ o.norm, Ok ru toks st AL AR B R a s
  | .brk, s => ∃ a ∈ o.brk, Ok ru toks st AL AR B R a s
  | .ret v, s => ∃ a ∈ o.ret, ∃ val : Var → Val, val TMP = v ∧ s.ps.WF toks ∧
      Inv ru toks st AL AR val (leadStart toks s.ps.pos) (trailEnd toks s.ps.pos) a

theorem joinOut_left {o o' o2 : OOut} {r : Flow} {s : St} (h : FlowOk ru toks st AL AR B R o r s)
    (e : joinOut o o' = .ok o2) : FlowOk ru toks st AL AR B R o2 r s := by
  unfold joinOut at e
  split at e
  · cases e
  · next n hn =>
    split at e
    · cases e
    · next k hk =>
      cases e
      cases r with
      | norm =>
        obtain ⟨a, ha, h⟩ := h
        exact Ok.merge hn ⟨a, List.mem_append_left _ ha, h⟩
      | brk =>
        obtain ⟨a, ha, h⟩ := h
        exact Ok.merge hk ⟨a, List.mem_append_left _ ha, h⟩
      | ret v =>
        obtain ⟨x, hx, h⟩ := h
        exact ⟨x, List.mem_append_left _ hx, h⟩

theorem joinOut_right {o o' o2 : OOut} {r : Flow} {s : St} (h : FlowOk ru toks st AL AR B R o' r s)
    (e : joinOut o o' = .ok o2) : FlowOk ru toks st AL AR B R o2 r s := by
  unfold joinOut at e
  split at e
  · cases e
  · next n hn =>
    split at e
    · cases e
    · next k hk =>
      cases e
      cases r with
      | norm =>
        obtain ⟨a, ha, h⟩ := h
        exact Ok.merge hn ⟨a, List.mem_append_right _ ha, h⟩
      | brk =>
        obtain ⟨a, ha, h⟩ := h
        exact Ok.merge hk ⟨a, List.mem_append_right _ ha, h⟩
      | ret v =>
        obtain ⟨x, hx, h⟩ := h
        exact ⟨x, List.mem_append_right _ hx, h⟩

theorem runAll_sound {f : OState → OI.R OOut} {l : List OState} {o : OOut} (e : runAll f l = .ok o) {a : OState}
    (ha : a ∈ l) {r : Flow} {s : St} (h : ∀ o', f a = .ok o' → FlowOk ru toks st AL AR B R o' r s) :
    FlowOk ru toks st AL AR B R o r s := by
  induction l generalizing o with
  | nil => cases ha
  | cons c l ih =>
    rw [runAll] at e
    split at e
    · cases e
    · next o1 h1 =>
      split at e
      · cases e
      · next o2 h2 =>
        rcases List.mem_cons.1 ha with rfl | ha
        · exact joinOut_left (h o1 h1) e
        · exact joinOut_right (ih h2 ha) e

theorem runAll_mem {f : OState → OI.R OOut} {l : List OState} {o : OOut} (e : runAll f l = .ok o) {a : OState}
    (ha : a ∈ l) : ∃ o', f a = .ok o' := by
  induction l generalizing o with
  | nil => cases ha
  | cons c l ih =>
    rw [runAll] at e
    split at e
    · cases e
    · next o1 h1 =>
      split at e
      · cases e
      · next o2 h2 =>
        rcases List.mem_cons.1 ha with rfl | ha
        · exact ⟨o1, h1⟩
        · exact ih h2 ha

theorem fixLoop_sound {body : OState → OI.R OOut} {n : Nat} {l i : List OState} {o : OOut}
    (e : fixLoop body n l = .ok (i, o)) : runAll body i = .ok o ∧ statesLe o.norm i = true ∧
      ∀ ru toks st AL AR B R s, (∃ a ∈ l, Ok ru toks st AL AR B R a s) →
        ∃ a ∈ i, Ok ru toks st AL AR B R a s := by
  induction n generalizing l with
  | zero => cases e
  | succ n ih =>
    rw [fixLoop] at e
    split at e
    · cases e
    · next o' ho =>
      split at e
      · next hle =>
        cases e
        exact ⟨ho, hle, fun _ _ _ _ _ _ _ _ h => h⟩
      · split at e
        · cases e
        · next j hj =>
          obtain ⟨h1, h2, h3⟩ := ih e
          refine ⟨h1, h2, fun ru toks st AL AR B R s h => ?_⟩
          obtain ⟨a, ha, h⟩ := h
          exact h3 _ _ _ _ _ _ _ _ (Ok.merge hj ⟨a, List.mem_append_left _ ha, h⟩)

/-! ### Loops -/

theorem iterate_sound {f : St → Out (Flow × St)} {i : List OState} {o : OOut} (hle : statesLe o.norm i = true)
    (hf : ∀ a ∈ i, ∀ s r s', Ok ru toks st AL AR B R a s → f s = .ok (r, s') → FlowOk ru toks st AL AR B R o r s') :
    ∀ n s r s', (∃ a ∈ i, Ok ru toks st AL AR B R a s) → iterate f n s = .ok (r, s') →
      FlowOk ru toks st AL AR B R ⟨o.brk, [], o.ret⟩ r s' := by
  intro n
  induction n with
  | zero => intro s r s' _ e; cases e
  | succ n ih =>
    intro s r s' h e
    obtain ⟨a, ha, h⟩ := h
    simp only [iterate] at e
    split at e
    · next s1 h1 => exact ih s1 r s' (Ok.statesLe hle (hf a ha _ _ _ h h1)) e
    · next s1 h1 => cases e; exact hf a ha _ _ _ h h1
    · next v s1 h1 => cases e; exact hf a ha _ _ _ h h1
    · cases e
    · cases e
    · cases e

/-- A variable that is not described any more. -/
theorem Ok.dropSet {s : St} {x : Var} (h : Ok ru toks st AL AR B R a s) (hx : ∀ b, boolOf x B ≠ some b) (v : Val) :
    Ok ru toks st AL AR B R (dropVar x a) { s with env := s.env.set x v } := by
  obtain ⟨hs, hB, val, hval, hR, hi⟩ := h
  refine ⟨hs, hB.set hx v, lift val (s.env.set x v), fun y hy => lift_low hy, by rw [lift_rest, hR], ?_⟩
  exact hi.drop x fun y hy => lift_set hval hy

theorem Ok.drop {s : St} {x : Var} (h : Ok ru toks st AL AR B R a s) : Ok ru toks st AL AR B R (dropVar x a) s := by
  obtain ⟨hs, hB, val, hval, hR, hi⟩ := h
  exact ⟨hs, hB, val, hval, hR, hi.drop x fun y hy => rfl⟩

theorem scanLoop_sound {f : St → Out (Flow × St)} {i n' : List OState} {o : OOut} {x : Var}
    {done : St → Out (Flow × St)} (hd : ∀ s r s', done s = .ok (r, s') → r = .norm ∧ s' = s)
    (hx : ∀ b, boolOf x B ≠ some b) (hle : statesLe o.norm i = true) (hj : OI.merge (i ++ o.brk) = .ok n')
    (hf : ∀ a ∈ i, ∀ s r s', Ok ru toks st AL AR B R (dropVar x a) s → f s = .ok (r, s') →
      FlowOk ru toks st AL AR B R o r s') :
    ∀ n k s r s', (∃ a ∈ i, Ok ru toks st AL AR B R a s) → scanLoop f x done n k s = .ok (r, s') →
      FlowOk ru toks st AL AR B R ⟨n', [], o.ret⟩ r s' := by
  intro n
  induction n with
  | zero =>
    intro k s r s' h e
    obtain ⟨rfl, rfl⟩ := hd _ _ _ e
    obtain ⟨a, ha, h⟩ := h
    exact Ok.merge hj ⟨a, List.mem_append_left _ ha, h⟩
  | succ n ih =>
    intro k s r s' h e
    simp only [scanLoop] at e
    obtain ⟨a, ha, h⟩ := h
    have h0 := h.dropSet hx (.nat k)
    split at e
    · next s1 h1 => exact ih (k + 1) s1 r s' (Ok.statesLe hle (hf a ha _ _ _ h0 h1)) e
    · next s1 h1 =>
      cases e
      obtain ⟨b, hb, h2⟩ := hf a ha _ _ _ h0 h1
      exact Ok.merge hj ⟨b, List.mem_append_right _ hb, h2⟩
    · next v s1 h1 => cases e; exact hf a ha _ _ _ h0 h1
    · cases e
    · cases e
    · cases e

/-- The state of a loop over a vector after taking a node from it. -/
def drainState (x : Var) (a : OState) : OState :=
  ⟨(dropVar x a).cov.commit, (dropVar x a).lw, split REST x (dropVar x a).rw, (dropVar x a).em⟩

theorem Ok.take {s : St} {x : Var} {ns : List Node} {n : Node} (hl : low x = true) (hx : ∀ b, boolOf x B ≠ some b)
    (h0 : count REST (dropVar x a).lw = 0) (h1 : count REST (dropVar x a).rw = 1)
    (h : Ok ru toks st AL AR B (.vec (ns ++ [n])) a s) :
    Ok ru toks st AL AR B (.vec ns) (drainState x a) { s with env := s.env.set x (.node n) } := by
  obtain ⟨hs, hB, val, hval, hR, hi⟩ := h
  have hi' := hi.drop (val' := val) x fun _ _ => rfl
  obtain ⟨k1, k2, k3⟩ := dropVar_none x a
  refine ⟨hs, hB.set hx _, fun y => if y = REST then .vec ns else lift val (s.env.set x (.node n)) y, ?_, ?_, ?_⟩
  · intro y hy
    dsimp only
    rw [if_neg (low_ne hy).2, lift_low hy]
  · exact if_pos rfl
  · refine hi'.splitOff (Ne.symm (low_ne hl).2) h0 h1 k1 k2 k3 hR ?_ ?_ ?_
    · exact if_pos rfl
    · rw [if_neg (low_ne hl).2, lift_self hl]
    · intro z hz hzx
      rw [if_neg hz, lift_set hval hzx]

/-- The vector of a loop is forgotten. -/
theorem Ok.forget {s : St} {R' : Val} (h : Ok ru toks st AL AR B R a s) :
    Ok ru toks st AL AR B R' (dropVar REST a) s := by
  obtain ⟨hs, hB, val, hval, hR, hi⟩ := h
  refine ⟨hs, hB, fun y => if y = REST then R' else val y, ?_, ?_, ?_⟩
  · intro y hy
    dsimp only
    rw [if_neg (low_ne hy).2, hval y hy]
  · exact if_pos rfl
  · exact hi.drop REST fun y hy => if_neg hy

/-- The start of a loop over a vector. -/
theorem Ok.start {s : St} {v : Var} {ns : List Node} (hl : low v = true) (hv : s.env v = .vec ns)
    (h : Ok ru toks st AL AR B R a s) :
    Ok ru toks st AL AR B (.vec ns) (renameVar v REST a) { s with env := s.env.set v (.vec []) } := by
  obtain ⟨hs, hB, val, hval, hR, hi⟩ := h
  refine ⟨hs, hB.set (hB.none (by intro b hb; rw [hv] at hb; cases hb)) _,
    fun y => if y = REST then .vec ns else lift val (s.env.set v (.vec [])) y, ?_, ?_, ?_⟩
  · intro y hy
    dsimp only
    rw [if_neg (low_ne hy).2, lift_low hy]
  · exact if_pos rfl
  · refine hi.rename (low_ne hl).2 ?_ ?_
    · rw [if_pos rfl, hval v hl, hv]
    · intro z hz hzR
      rw [if_neg hzR, lift_set hval hz]

theorem drainLoop_sound {f : St → Out (Flow × St)} {i n' : List OState} {o : OOut} {x : Var}
    (hl : low x = true) (hx : ∀ b, boolOf x B ≠ some b)
    (hle : statesLe o.norm i = true) (hj : OI.merge (i ++ o.brk) = .ok n')
    (hc : ∀ a ∈ i, count REST (dropVar x a).lw = 0 ∧ count REST (dropVar x a).rw = 1)
    (hf : ∀ a ∈ i, ∀ R s r s', Ok ru toks st AL AR B R (drainState x a) s → f s = .ok (r, s') →
      FlowOk ru toks st AL AR B R o r s') :
    ∀ (ns : List Node) s r s', (∃ a ∈ i, Ok ru toks st AL AR B (.vec ns.reverse) a s) →
      drainLoop f x ns s = .ok (r, s') →
      FlowOk ru toks st AL AR B R ⟨n'.map (dropVar REST), [], o.ret⟩ r s' := by
  intro ns
  induction ns with
  | nil =>
    intro s r s' h e
    cases e
    obtain ⟨a, ha, h⟩ := h
    obtain ⟨b, hb, h2⟩ := Ok.merge hj ⟨a, List.mem_append_left _ ha, h⟩
    exact ⟨_, List.mem_map_of_mem hb, h2.forget⟩
  | cons n ns ih =>
    intro s r s' h e
    simp only [drainLoop] at e
    obtain ⟨a, ha, h⟩ := h
    rw [List.reverse_cons] at h
    have h0 := h.take hl hx (hc a ha).1 (hc a ha).2
    split at e
    · next s1 h1 => exact ih s1 r s' (Ok.statesLe hle (hf a ha _ _ _ _ h0 h1)) e
    · next s1 h1 =>
      cases e
      obtain ⟨b, hb, h2⟩ := hf a ha _ _ _ _ h0 h1
      obtain ⟨b', hb', h3⟩ := Ok.merge hj ⟨b, List.mem_append_right _ hb, h2⟩
      exact ⟨_, List.mem_map_of_mem hb', h3.forget⟩
    · next v s1 h1 => cases e; exact hf a ha _ _ _ _ h0 h1
    · cases e
    · cases e
    · cases e

/-! ### Commands -/

theorem one_ok {x : OI.R OState} {o : OOut} (h : one x = .ok o) : ∃ b, x = .ok b ∧ o = ⟨[b], [], []⟩ := by
  unfold one at h
  split at h
  · cases h
  · next b => cases h; exact ⟨b, rfl, rfl⟩

theorem rbind_ok {α β : Type} {x : OI.R α} {f : α → OI.R β} {y : β} (h : rbind x f = .ok y) :
    ∃ b, x = .ok b ∧ f b = .ok y := by
  unfold rbind at h
  split at h
  · cases h
  · next b => exact ⟨b, rfl, h⟩

theorem OkVal.set {s : St} {v : Val} {x : Var} (h : OkVal ru toks st AL AR B R a s v) (hb : aset B x a = .ok b) :
    Ok ru toks st AL AR B R b { s with env := s.env.set x v } := by
  obtain ⟨hs, hB, val, hval, hR, hT, hi⟩ := h
  unfold aset at hb
  split at hb
  · cases hb
  · next hc =>
    cases hb
    rw [Bool.or_eq_true, not_or] at hc
    have hl : low x = true := by simpa using hc.1
    have hx : ∀ b, boolOf x B ≠ some b := by
      intro b hb
      rw [hb] at hc
      exact hc.2 rfl
    refine ⟨hs, hB.set hx v, lift val (s.env.set x v), fun y hy => lift_low hy, by rw [lift_rest, hR], ?_⟩
    refine hi.rename (Ne.symm (low_ne hl).1) ?_ ?_
    · rw [lift_self hl, hT]
    · intro z _ hz
      exact lift_set hval hz

theorem apush_low {x : Var} {k : Key} {i : Bool} (h : apush ru x k i a = .ok b) : low x = true := by
  unfold apush at h
  split at h
  · cases h
  · next hl => simpa using hl

theorem aappend_low {x : Var} (h : aappend x a = .ok b) : low x = true := by
  unfold aappend at h
  split at h
  · cases h
  · next hl => simpa using hl

theorem asetType_low {x : Var} {nt : NodeType} (h : asetType ru x nt a = .ok b) : low x = true := by
  unfold asetType at h
  split at h
  · cases h
  · next hl => simpa using hl

/-- The analysis of commands is sound. -/
theorem exec_sound {T : Fn → List Entry} {C : Ctx} (hC : C.toks = toks) (he : Ends toks)
    (hcall : CallOk ru toks T C.call) :
    ∀ (c : Cmd) (a : OState) (R : Val) (s : St) (o : OOut) (r : Flow) (s' : St), Ok ru toks st AL AR B R a s →
      aexec ru T B c a = .ok o → exec C c s = .ok (r, s') → FlowOk ru toks st AL AR B R o r s' := by
  intro c
  induction c with
  | skip => intro a R s o r s' h ea ee; cases ea; cases ee; exact ⟨a, List.mem_singleton.2 rfl, h⟩
  | seq c d ihc ihd =>
    intro a R s o r s' h ea ee
    simp only [aexec] at ea
    split at ea
    · cases ea
    · next o1 h1 =>
      split at ea
      · cases ea
      · next o2 h2 =>
        simp only [exec] at ee
        split at ee
        · next s1 hs1 =>
          obtain ⟨b, hb, h'⟩ := ihc a R s o1 _ s1 h h1 hs1
          exact joinOut_right (runAll_sound h2 hb fun o' ho' => ihd b R s1 o' r s' h' ho' ee) ea
        · next hne =>
          have := ihc a R s o1 r s' h h1 ee
          refine joinOut_left (o := ⟨[], o1.brk, o1.ret⟩) ?_ ea
          cases r with
          | norm => exact absurd ee (hne s')
          | brk => exact this
          | ret v => exact this
  | next =>
    intro a R s o r s' h ea ee
    cases ea
    simp only [exec] at ee
    obtain ⟨ps', hps, ee⟩ := PI.bind_ok ee
    cases ee
    rw [hC] at hps
    obtain ⟨hs, hB, val, hval, hR, hi⟩ := h
    obtain ⟨k1, k2, _⟩ := nextToken_wf he hs hps
    refine ⟨_, List.mem_singleton.2 rfl, k1, hB, val, hval, hR, ?_⟩
    have := hi.next (startOf_le hs false) (trailEnd toks ps'.pos)
    rw [← k2] at this
    exact this
  | set x e =>
    intro a R s o r s' h ea ee
    simp only [aexec] at ea
    simp only [exec] at ee
    obtain ⟨⟨v, s1⟩, h1, ee⟩ := PI.bind_ok ee
    cases ee
    obtain ⟨b, hb, rfl⟩ := one_ok ea
    obtain ⟨a1, ha1, hb⟩ := rbind_ok hb
    exact ⟨b, List.mem_singleton.2 rfl, (aeval_sound hC hcall h ha1 h1).set hb⟩
  | push x k e =>
    intro a R s o r s' h ea ee
    simp only [aexec] at ea
    simp only [exec] at ee
    obtain ⟨⟨v, s1⟩, h1, ee⟩ := PI.bind_ok ee
    obtain ⟨b, hb, rfl⟩ := one_ok ea
    obtain ⟨a1, ha1, hb⟩ := rbind_ok hb
    dsimp only at ee
    split at ee
    · next n c hn =>
      cases ee
      obtain ⟨hs, hB, val, hval, hR, hT, hi⟩ := aeval_sound hC hcall h ha1 h1
      have hl := apush_low hb
      refine ⟨b, List.mem_singleton.2 rfl, hs, hB.set (hB.none (by intro b hb; rw [hn] at hb; cases hb)) _,
        lift val (s1.env.set x (.node (n.pushNode k c))), fun y hy => lift_low hy, by rw [lift_rest, hR], ?_⟩
      exact hi.push hb ((hval x hl).trans hn) (pushed_node n k c) (.inr ⟨rfl, c, hT, rfl⟩) (lift_self hl)
        (fun y hy _ => lift_set hval hy)
    · cases ee
  | pushVec x k e =>
    intro a R s o r s' h ea ee
    simp only [aexec] at ea
    simp only [exec] at ee
    obtain ⟨⟨v, s1⟩, h1, ee⟩ := PI.bind_ok ee
    obtain ⟨b, hb, rfl⟩ := one_ok ea
    obtain ⟨a1, ha1, hb⟩ := rbind_ok hb
    dsimp only at ee
    split at ee
    · next n cs hn =>
      cases ee
      obtain ⟨hs, hB, val, hval, hR, hT, hi⟩ := aeval_sound hC hcall h ha1 h1
      have hl := apush_low hb
      refine ⟨b, List.mem_singleton.2 rfl, hs, hB.set (hB.none (by intro b hb; rw [hn] at hb; cases hb)) _,
        lift val (s1.env.set x (.node (n.pushVec k cs))), fun y hy => lift_low hy, by rw [lift_rest, hR], ?_⟩
      exact hi.push hb ((hval x hl).trans hn) (pushed_vec n k cs) (.inl ⟨rfl, hT⟩) (lift_self hl)
        (fun y hy _ => lift_set hval hy)
    · cases ee
  | append x e =>
    intro a R s o r s' h ea ee
    simp only [aexec] at ea
    simp only [exec] at ee
    obtain ⟨⟨v, s1⟩, h1, ee⟩ := PI.bind_ok ee
    obtain ⟨b, hb, rfl⟩ := one_ok ea
    obtain ⟨a1, ha1, hb⟩ := rbind_ok hb
    dsimp only at ee
    split at ee
    · next ns c hn =>
      cases ee
      obtain ⟨hs, hB, val, hval, hR, hT, hi⟩ := aeval_sound hC hcall h ha1 h1
      have hl := aappend_low hb
      refine ⟨b, List.mem_singleton.2 rfl, hs, hB.set (hB.none (by intro b hb; rw [hn] at hb; cases hb)) _,
        lift val (s1.env.set x (.vec (ns ++ [c]))), fun y hy => lift_low hy, by rw [lift_rest, hR], ?_⟩
      exact hi.append hb ((hval x hl).trans hn) hT (lift_self hl) (fun y hy => lift_set hval hy)
    · cases ee
  | setType x nt =>
    intro a R s o r s' h ea ee
    simp only [aexec] at ea
    simp only [exec] at ee
    obtain ⟨b, hb, rfl⟩ := one_ok ea
    split at ee
    · next n hn =>
      cases ee
      obtain ⟨hs, hB, val, hval, hR, hi⟩ := h
      have hl := asetType_low hb
      refine ⟨b, List.mem_singleton.2 rfl, hs, hB.set (hB.none (by intro b hb; rw [hn] at hb; cases hb)) _,
        lift val (s.env.set x (.node (n.setType nt))), fun y hy => lift_low hy, by rw [lift_rest, hR], ?_⟩
      exact hi.setType hb ((hval x hl).trans hn) (lift_self hl) (fun y hy => lift_set hval hy)
    · cases ee
  | ite c d e ihd ihe =>
    intro a R s o r s' h ea ee
    simp only [aexec] at ea
    simp only [exec] at ee
    split at ea
    · cases ea
    · next o1 h1 =>
      split at ea
      · cases ea
      · next o2 h2 =>
        split at ee
        · next hb =>
          obtain ⟨b, hb', h'⟩ := assume_sound h hb
          exact joinOut_left (runAll_sound h1 hb' fun o' ho' => ihd b R s o' r s' h' ho' ee) ea
        · next hb =>
          obtain ⟨b, hb', h'⟩ := assume_sound h hb
          exact joinOut_right (runAll_sound h2 hb' fun o' ho' => ihe b R s o' r s' h' ho' ee) ea
        · cases ee
        · cases ee
        · cases ee
  | loop c ih =>
    intro a R s o r s' h ea ee
    simp only [aexec] at ea
    split at ea
    · cases ea
    · next i o1 hi =>
      cases ea
      obtain ⟨h1, h2, h3⟩ := fixLoop_sound hi
      refine iterate_sound h2 (fun b hb s r s' h e => runAll_sound h1 hb fun o' ho' => ih b R s o' r s' h ho' e)
        _ s r s' (h3 _ _ _ _ _ _ _ _ ⟨a, List.mem_singleton.2 rfl, h⟩) ee
  | brk => intro a R s o r s' h ea ee; cases ea; cases ee; exact ⟨a, List.mem_singleton.2 rfl, h⟩
  | ret e =>
    intro a R s o r s' h ea ee
    simp only [aexec] at ea
    simp only [exec] at ee
    obtain ⟨⟨v, s1⟩, h1, ee⟩ := PI.bind_ok ee
    cases ee
    split at ea
    · cases ea
    · next b hb =>
      cases ea
      obtain ⟨hs, _, val, _, _, hT, hi⟩ := aeval_sound hC hcall h hb h1
      exact ⟨b, List.mem_singleton.2 rfl, val, hT, hs, hi⟩
  | fail o' line =>
    intro a R s o r s' h ea ee
    simp only [exec] at ee
    obtain ⟨t, _, ee⟩ := PI.bind_ok ee
    cases ee
  | scan x lo hi c ih =>
    intro a R s o r s' h ea ee
    simp only [aexec] at ea
    split at ea
    · cases ea
    · next hx =>
      have hx' : ∀ b, boolOf x B ≠ some b := by
        intro b hb
        rw [hb] at hx
        exact hx rfl
      split at ea
      · cases ea
      · next i o1 hi' =>
        split at ea
        · cases ea
        · next n hn =>
          cases ea
          obtain ⟨h1, h2, h3⟩ := fixLoop_sound hi'
          have h' := h3 _ _ _ _ _ _ _ _ ⟨_, List.mem_singleton.2 rfl, h.drop (x := x)⟩
          have hf : ∀ b ∈ i, ∀ s r s', Ok ru toks st AL AR B R (dropVar x b) s → exec C c s = .ok (r, s') →
              FlowOk ru toks st AL AR B R o1 r s' := fun b hb s r s' h e =>
            runAll_sound h1 hb fun o' ho' => ih _ R s o' r s' h ho' e
          cases hi with
          | none =>
            simp only [exec] at ee
            exact scanLoop_sound (by intro s r s' h; cases h) hx' h2 hn hf _ _ s r s' h' ee
          | some hi =>
            simp only [exec] at ee
            split at ee
            · exact scanLoop_sound (by intro s r s' h; cases h; exact ⟨rfl, rfl⟩) hx' h2 hn hf _ _ s r s' h' ee
            · cases ee
            · cases ee
            · cases ee
            · cases ee
  | drain v x c ih =>
    intro a R s o r s' h ea ee
    simp only [aexec] at ea
    split at ea
    · cases ea
    · next hcond =>
      rw [Bool.or_eq_true, not_or, Bool.or_eq_true, not_or] at hcond
      obtain ⟨⟨hlx, hlv⟩, hx⟩ := hcond
      replace hlx : low x = true := by simpa using hlx
      replace hlv : low v = true := by simpa using hlv
      have hx' : ∀ b, boolOf x B ≠ some b := by
        intro b hb
        rw [hb] at hx
        exact hx rfl
      split at ea
      · cases ea
      · next i o1 hi' =>
        split at ea
        · cases ea
        · next n hn =>
          cases ea
          obtain ⟨h1, h2, h3⟩ := fixLoop_sound hi'
          simp only [exec] at ee
          split at ee
          · next ns hns =>
            have h' := h3 _ _ _ _ _ _ _ _ ⟨_, List.mem_singleton.2 rfl, h.start hlv hns⟩
            refine drainLoop_sound hlx hx' h2 hn ?_ ?_ ns.reverse _ r s' ?_ ee
            · intro b hb
              obtain ⟨o', ho'⟩ := runAll_mem h1 hb
              split at ho'
              · next hc =>
                rw [Bool.and_eq_true, beq_iff, beq_iff] at hc
                exact hc
              · cases ho'
            · intro b hb R s r s' h e
              refine runAll_sound h1 hb fun o' ho' => ?_
              split at ho'
              · exact ih _ R s o' r s' h ho' e
              · cases ho'
            · rw [List.reverse_reverse]; exact h'
          · cases ee
  | tryElse x f args c ih =>
    intro a R s o r s' h ea ee
    simp only [aexec] at ea
    simp only [exec] at ee
    obtain ⟨vs, hvs, ee⟩ := PI.bind_ok ee
    split at ea
    · cases ea
    · next b hb =>
      split at ea
      · cases ea
      · next o1 h1 =>
        split at ee
        · next v ps' hv =>
          cases ee
          obtain ⟨a1, ha1, hb⟩ := rbind_ok hb
          have he : evalExp C s (.call f args) = .ok (v, { s with ps := ps' }) := by
            simp only [evalExp]
            rw [hvs, Out.bind_ok, hv, Out.bind_ok]
          exact joinOut_left (o := ⟨[b], [], []⟩) (r := .norm)
            ⟨b, List.mem_singleton.2 rfl, (aeval_sound (e := .call f args) hC hcall h ha1 he).set hb⟩ ea
        · exact joinOut_right (ih a R s o1 r s' h h1 ee) ea
        · cases ee
        · cases ee

end Verif.OI
