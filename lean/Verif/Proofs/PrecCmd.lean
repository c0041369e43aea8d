import Verif.Proofs.PrecExp
/-! Soundness of the precedence analysis: commands and functions. -/
namespace Verif.PI
open Core Spec Interp

variable {U : Unicode} {toks : List Token} {p q : Nat} {ps : PS}

theorem setTok_eq (n : Node) (ty ty' : NodeType) : (n.setType ty).setType ty' = n.setType ty' := by
  cases n; rfl

theorem apush_sound {a b : PState} {s : St} {x : Var} {k : Key} {v : PV} {n c : Node} (h : γ U toks a p q s)
    (e : apush x k v a = .ok b) (hx : s.env x = .node n) (hv : Γ U toks p q s.ps v (.node c)) (hc : Good U c) :
    γ U toks b p q { s with env := s.env.set x (.node (n.pushNode k c)) } := by
  have hn : Good U n := by have := h.good x; rw [hx] at this; exact this
  have hl := lookNV_ok h hx
  unfold apush at e
  split at e
  · next hk =>
    split at e
    · cases e
    · next w hw =>
      cases e
      obtain ⟨h1, h2⟩ := pushOperand_sound h.m0 hl hn.self hv.facts hk hw
      exact h.set h1 (good_push hn hc h2)
  · next hk =>
    have hs := same_push n c (Bool.eq_false_iff.2 hk)
    have hg : Good U (n.pushNode k c) := good_push hn hc (hs.byPrec hn.self)
    split at e
    · next ho =>
      cases e
      exact h.set (orderNV_ok hs (ordered_of_push n c ho) hl) hg
    · cases e
      exact h.keep (hs.kindOk ordered_push hl) hg

theorem nonop_pushVec {v : NV} {n : Node} {cs : List Node} {k : Key} (hk : orderKey k = false)
    (hn : nonopTy n.ty = true) (h : Facts U toks p q ps v n) : Facts U toks p q ps v (n.pushVec k cs) := by
  have hn' : nonopTy (n.pushVec k cs).ty = true := hn
  refine h.congr (fun b _ => ltB_none (nonop_opPrec hn') b) ?_ (fun b _ => (cl_nonop hn').spA b)
    (fun _ => cl_nonop hn')
  intro h
  rw [so_iff, nonop_last hn] at h
  rw [so_iff]
  rcases h with h | ⟨l, hl, _⟩
  · exact .inl (ordered_pushVec hk h)
  · simp at hl

theorem apushVec_sound {a b : PState} {s : St} {x : Var} {k : Key} {v : PV} {n : Node} {cs : List Node}
    (h : γ U toks a p q s) (e : apushVec x k v a = .ok b) (hx : s.env x = .node n)
    (hv : Γ U toks p q s.ps v (.vec cs)) (hc : ∀ c ∈ cs, Good U c) :
    γ U toks b p q { s with env := s.env.set x (.node (n.pushVec k cs)) } := by
  have hn : Good U n := by have := h.good x; rw [hx] at this; exact this
  have hl := lookNV_ok h hx
  unfold apushVec at e
  split at e
  · next hk =>
    split at e
    · next hkind =>
      cases e
      unfold NVOk at hl
      rw [hkind] at hl
      have ho : orderKey k = false := by
        rcases operandKey_iff.1 hk with rfl | rfl | rfl | rfl | rfl <;> decide
      have hn' : nonopTy (n.pushVec k cs).ty = true := hl.1
      refine h.keep ?_ (good_pushVec hn hc (byPrec_nonop hn'))
      unfold NVOk
      rw [hkind]
      exact ⟨hn', nonop_pushVec ho hl.1 hl.2⟩
    · cases e
  · next hk =>
    have hs := same_pushVec n cs (Bool.eq_false_iff.2 hk)
    have hg : Good U (n.pushVec k cs) := good_pushVec hn hc (hs.byPrec hn.self)
    split at e
    · next ho =>
      split at e
      · cases e
        exact h.set (orderNV_ok hs (ordered_of_pushVec n hv ho) hl) hg
      · cases e
        exact h.set (Γ.top _) hg
    · next ho =>
      cases e
      exact h.keep (hs.kindOk (ordered_pushVec (Bool.eq_false_iff.2 ho)) hl) hg

theorem asetType_sound {a b : PState} {s : St} {x : Var} {nt : NodeType} {n : Node} (h : γ U toks a p q s)
    (e : asetType x nt a = .ok b) (hx : s.env x = .node n) :
    γ U toks b p q { s with env := s.env.set x (.node (n.setType nt)) } := by
  have hn : Good U n := by have := h.good x; rw [hx] at this; exact this
  have hl := lookNV_ok h hx
  unfold asetType at e
  split at e
  · next hnt =>
    cases e
    have h1 : nonopTy (n.setType nt).ty = true := hnt
    exact h.set (v := .node .nonop) ⟨h1, .nonop (nonop_opPrec h1) (cl_nonop h1)⟩ (good_setType hn (byPrec_nonop h1))
  · split at e
    · next hu =>
      rw [AI.tyEq_iff] at hu
      subst hu
      unfold NVOk at hl
      have hty : (n.setType .UnaryOperator).ty = .UnaryOperator := rfl
      split at e
      · next cur m hkind =>
        cases e
        rw [hkind] at hl
        obtain ⟨t, ht1, ht2, ht3⟩ := hl.2.2.1
        refine h.set (v := .node _) ⟨rfl, hl.2.1, ⟨t, ht1, ht2, ht3⟩, ?_⟩ (good_setType hn ?_)
        · have := fun b => ltB_none (unary_opPrec (U := U) hty) b
          exact ⟨fun _ => this _, fun _ => this _, fun _ _ => this _, (by intro h; cases h),
            (by intro h; cases h), (by intro h; cases h), (by intro h; cases h), (by intro h; cases h),
            (by intro h; cases h), (by intro h; cases h), fun _ _ => .inr (Nat.zero_le _)⟩
        · rw [byPrecedence_iff, unary_opPrec hty]
          have : rightOperands (n.setType .UnaryOperator) = [] := by
            unfold rightOperands
            rw [hty]
            exact hl.2.1
          rw [this]
          exact ⟨by simp, by simp⟩
      · next hkind =>
        cases e
        rw [hkind] at hl
        refine h.keep ?_ (good_setType hn hl.2.1)
        unfold NVOk
        rw [hkind]
        refine ⟨.inr rfl, ?_, ?_⟩
        · rw [setTok_eq]; exact hl.2.1
        · rw [setTok_eq]; exact hl.2.2
      · cases e
    · cases e

/-! ### Commands -/

/-- How a command ended is described. -/
def FlowOk (U : Unicode) (toks : List Token) (o : POut) (p : Nat) : Flow → St → Prop
  | .norm, s => OOk U toks o.norm p s
  | .brk, s => OOk U toks o.brk p s
  | .ret v, s => ∃ e ∈ o.ret, ∃ q, γ U toks e.2 p q s ∧ Γ U toks p q s.ps e.1 v ∧ GoodVal U v

theorem joinOut_left {a b c : POut} {f : Flow} {s : St} (h : FlowOk U toks a p f s) (e : joinOut a b = .ok c) :
    FlowOk U toks c p f s := by
  unfold joinOut at e
  split at e
  · cases e
  · next n hn =>
    split at e
    · cases e
    · next k hk =>
      cases e
      cases f with
      | norm => exact join_left h hn
      | brk => exact join_left h hk
      | ret v =>
        obtain ⟨x, hx, h⟩ := h
        exact ⟨x, List.mem_append_left _ hx, h⟩

theorem joinOut_right {a b c : POut} {f : Flow} {s : St} (h : FlowOk U toks b p f s) (e : joinOut a b = .ok c) :
    FlowOk U toks c p f s := by
  unfold joinOut at e
  split at e
  · cases e
  · next n hn =>
    split at e
    · cases e
    · next k hk =>
      cases e
      cases f with
      | norm => exact join_right h hn
      | brk => exact join_right h hk
      | ret v =>
        obtain ⟨x, hx, h⟩ := h
        exact ⟨x, List.mem_append_right _ hx, h⟩

theorem OOk.some {a : PState} {s : St} (h : γ U toks a p q s) : OOk U toks (some a) p s := ⟨a, rfl, q, h⟩

theorem oLe_sound {o : O} {i : PState} {s : St} (h : OOk U toks o p s) (e : oLe o i = true) :
    ∃ q, γ U toks i p q s := by
  obtain ⟨a, rfl, q, h⟩ := h
  exact ⟨q, h.le e⟩

theorem fixLoop_sound {body : PState → R POut} {n : Nat} {a i : PState} {o : POut}
    (e : fixLoop body n a = .ok (i, o)) :
    body i = .ok o ∧ oLe o.norm i = true ∧
      ∀ q s, γ U toks a p q s → ∃ q', γ U toks i p q' s := by
  induction n generalizing a with
  | zero => cases e
  | succ n ih =>
    simp only [fixLoop] at e
    split at e
    · cases e
    · next o' ho =>
      split at e
      · next hle =>
        cases e
        exact ⟨ho, hle, fun q s h => ⟨q, h⟩⟩
      · split at e
        · cases e
        · cases e
        · next j hj =>
          obtain ⟨h1, h2, h3⟩ := ih e
          refine ⟨h1, h2, fun q s h => ?_⟩
          obtain ⟨b, hb, q', h'⟩ := join_left (OOk.some h) hj
          cases hb
          exact h3 q' s h'

/-- Loops. -/
theorem iterate_sound {f : St → Out (Flow × St)} {i : PState} {o : POut} (hle : oLe o.norm i = true)
    (hf : ∀ q s r s', γ U toks i p q s → f s = .ok (r, s') → FlowOk U toks o p r s') :
    ∀ n q s r s', γ U toks i p q s → iterate f n s = .ok (r, s') →
      FlowOk U toks ⟨o.brk, none, o.ret⟩ p r s' := by
  intro n
  induction n with
  | zero => intro q s r s' _ e; cases e
  | succ n ih =>
    intro q s r s' h e
    simp only [iterate] at e
    split at e
    · next s1 h1 =>
      obtain ⟨q', h'⟩ := oLe_sound (hf _ _ _ _ h h1) hle
      exact ih q' s1 r s' h' e
    · next s1 h1 => cases e; exact hf _ _ _ _ h h1
    · next v s1 h1 => cases e; exact hf _ _ _ _ h h1
    · cases e
    · cases e
    · cases e

theorem scanLoop_sound {f : St → Out (Flow × St)} {i : PState} {o : POut} {x : Var} {n' : O}
    {done : St → Out (Flow × St)} (hd : ∀ s r s', done s = .ok (r, s') → r = .norm ∧ s' = s)
    (hle : oLe o.norm i = true) (hj : join (some i) o.brk = .ok n')
    (hf : ∀ q s r s', γ U toks (setVar x .top i) p q s → f s = .ok (r, s') → FlowOk U toks o p r s') :
    ∀ n k q s r s', γ U toks i p q s → scanLoop f x done n k s = .ok (r, s') →
      FlowOk U toks ⟨n', none, o.ret⟩ p r s' := by
  intro n
  induction n with
  | zero =>
    intro k q s r s' h e
    obtain ⟨rfl, rfl⟩ := hd _ _ _ e
    exact join_left (OOk.some h) hj
  | succ n ih =>
    intro k q s r s' h e
    simp only [scanLoop] at e
    have h0 : γ U toks (setVar x .top i) p q { s with env := s.env.set x (.nat k) } := h.set (Γ.top _) trivial
    split at e
    · next s1 h1 =>
      obtain ⟨q', h'⟩ := oLe_sound (hf _ _ _ _ h0 h1) hle
      exact ih (k + 1) q' s1 r s' h' e
    · next s1 h1 => cases e; exact join_right (hf _ _ _ _ h0 h1) hj
    · next v s1 h1 => cases e; exact hf _ _ _ _ h0 h1
    · cases e
    · cases e
    · cases e

theorem drainLoop_sound {f : St → Out (Flow × St)} {i : PState} {o : POut} {x : Var} {n' : O}
    (hle : oLe o.norm i = true) (hj : join (some i) o.brk = .ok n')
    (hf : ∀ q s r s', γ U toks (setVar x .top i) p q s → f s = .ok (r, s') → FlowOk U toks o p r s') :
    ∀ ns : List Node, (∀ n ∈ ns, Good U n) → ∀ q s r s', γ U toks i p q s →
      drainLoop f x ns s = .ok (r, s') → FlowOk U toks ⟨n', none, o.ret⟩ p r s' := by
  intro ns
  induction ns with
  | nil =>
    intro _ q s r s' h e
    cases e
    exact join_left (OOk.some h) hj
  | cons n ns ih =>
    intro hg q s r s' h e
    simp only [drainLoop] at e
    have h0 : γ U toks (setVar x .top i) p q { s with env := s.env.set x (.node n) } :=
      h.set (Γ.top _) (hg n (by simp))
    split at e
    · next s1 h1 =>
      obtain ⟨q', h'⟩ := oLe_sound (hf _ _ _ _ h0 h1) hle
      exact ih (fun m hm => hg m (by simp [hm])) q' s1 r s' h' e
    · next s1 h1 => cases e; exact join_right (hf _ _ _ _ h0 h1) hj
    · next v s1 h1 => cases e; exact hf _ _ _ _ h0 h1
    · cases e
    · cases e
    · cases e

/-- The analysis of commands is sound. -/
theorem exec_sound {T : Fn → Sum} {C : Ctx} (hU : C.U = U) (hC : C.toks = toks) (hT : CallSpec U toks T C.call) :
    ∀ (c : Cmd) (a : PState) (q : Nat) (s : St) (o : POut) (r : Flow) (s' : St), γ U toks a p q s →
      aexec T c a = .ok o → exec C c s = .ok (r, s') → FlowOk U toks o p r s' := by
  intro c
  induction c with
  | skip => intro a q s o r s' h ea ee; cases ea; cases ee; exact OOk.some h
  | seq c d ihc ihd =>
    intro a q s o r s' h ea ee
    simp only [aexec] at ea
    split at ea
    · cases ea
    · next o1 h1 =>
      split at ea
      · cases ea
      · next o2 h2 =>
        simp only [exec] at ee
        split at ee
        · next s1 hs1 =>
          obtain ⟨b, hb, q', h'⟩ := ihc a q s o1 _ s1 h h1 hs1
          rw [hb] at h2
          exact joinOut_right (ihd b q' s1 o2 r s' h' h2 ee) ea
        · next hne =>
          have := ihc a q s o1 r s' h h1 ee
          refine joinOut_left (a := ⟨none, o1.brk, o1.ret⟩) ?_ ea
          cases r with
          | norm => exact absurd ee (hne s')
          | brk => exact this
          | ret v => exact this
  | next =>
    intro a q s o r s' h ea ee
    cases ea
    simp only [exec] at ee
    obtain ⟨ps', hps, ee⟩ := bind_ok ee
    cases ee
    rw [hC] at hps
    exact OOk.some (h.next hps)
  | set x e =>
    intro a q s o r s' h ea ee
    simp only [aexec] at ea
    simp only [exec] at ee
    obtain ⟨⟨v, s1⟩, h1, ee⟩ := bind_ok ee
    cases ee
    split at ea
    · cases ea
    · next w b hb =>
      cases ea
      obtain ⟨q', g1, g2, g3⟩ := aeval_sound hU hC hT h hb h1
      exact OOk.some (g1.set g2 g3)
  | push x k e =>
    intro a q s o r s' h ea ee
    simp only [aexec] at ea
    simp only [exec] at ee
    obtain ⟨⟨v, s1⟩, h1, ee⟩ := bind_ok ee
    split at ea
    · cases ea
    · next w b hb =>
      obtain ⟨q', g1, g2, g3⟩ := aeval_sound hU hC hT h hb h1
      split at ea
      · cases ea
      · next b' hb' =>
        cases ea
        dsimp only at ee
        split at ee
        · next n c hn =>
          cases ee
          exact OOk.some (apush_sound g1 hb' hn g2 g3)
        · cases ee
  | pushVec x k e =>
    intro a q s o r s' h ea ee
    simp only [aexec] at ea
    simp only [exec] at ee
    obtain ⟨⟨v, s1⟩, h1, ee⟩ := bind_ok ee
    split at ea
    · cases ea
    · next w b hb =>
      obtain ⟨q', g1, g2, g3⟩ := aeval_sound hU hC hT h hb h1
      split at ea
      · cases ea
      · next b' hb' =>
        cases ea
        dsimp only at ee
        split at ee
        · next n c hn =>
          cases ee
          exact OOk.some (apushVec_sound g1 hb' hn g2 g3)
        · cases ee
  | append x e =>
    intro a q s o r s' h ea ee
    simp only [aexec] at ea
    simp only [exec] at ee
    obtain ⟨⟨v, s1⟩, h1, ee⟩ := bind_ok ee
    split at ea
    · cases ea
    · next w b hb =>
      obtain ⟨q', g1, g2, g3⟩ := aeval_sound hU hC hT h hb h1
      cases ea
      dsimp only at ee
      split at ee
      · next ns c hn =>
        cases ee
        refine OOk.some (g1.set (v := .vec1) (w := .vec (ns ++ [c])) ?_ ?_)
        · show ns ++ [c] ≠ []
          simp
        · intro m hm
          rcases List.mem_append.1 hm with hm | hm
          · have := g1.good x
            rw [hn] at this
            exact this m hm
          · rw [List.mem_singleton.1 hm]
            exact g3
      · cases ee
  | setType x nt =>
    intro a q s o r s' h ea ee
    simp only [aexec] at ea
    simp only [exec] at ee
    split at ea
    · cases ea
    · next b hb =>
      cases ea
      split at ee
      · next n hn =>
        cases ee
        exact OOk.some (asetType_sound h hb hn)
      · cases ee
  | ite c d e ihd ihe =>
    intro a q s o r s' h ea ee
    simp only [aexec] at ea
    simp only [exec] at ee
    split at ea
    · cases ea
    · next t f hc =>
      split at ea
      · cases ea
      · next o1 h1 =>
        split at ea
        · cases ea
        · next o2 h2 =>
          split at ee
          · next hb =>
            obtain ⟨b, hb', q', h'⟩ := assume_sound hU hC c a q _ true h hc hb
            obtain rfl : t = some b := hb'
            exact joinOut_left (ihd b q' s o1 r s' h' h1 ee) ea
          · next hb =>
            obtain ⟨b, hb', q', h'⟩ := assume_sound hU hC c a q _ false h hc hb
            obtain rfl : f = some b := hb'
            exact joinOut_right (ihe b q' s o2 r s' h' h2 ee) ea
          · cases ee
          · cases ee
          · cases ee
  | loop c ih =>
    intro a q s o r s' h ea ee
    simp only [aexec] at ea
    split at ea
    · cases ea
    · next i o1 hi =>
      cases ea
      obtain ⟨h1, h2, h3⟩ := fixLoop_sound (U := U) (toks := toks) (p := p) hi
      obtain ⟨q', h'⟩ := h3 q s h
      exact iterate_sound h2 (fun q s r s' h e => ih i q s o1 r s' h h1 e) _ q' s r s' h' ee
  | brk => intro a q s o r s' h ea ee; cases ea; cases ee; exact OOk.some h
  | ret e =>
    intro a q s o r s' h ea ee
    simp only [aexec] at ea
    simp only [exec] at ee
    obtain ⟨⟨v, s1⟩, h1, ee⟩ := bind_ok ee
    cases ee
    split at ea
    · cases ea
    · next w b hb =>
      cases ea
      obtain ⟨q', g1, g2, g3⟩ := aeval_sound hU hC hT h hb h1
      exact ⟨(w, b), by simp, q', g1, g2, g3⟩
  | fail o' line =>
    intro a q s o r s' h ea ee
    simp only [exec] at ee
    obtain ⟨t, _, ee⟩ := bind_ok ee
    cases ee
  | scan x lo hi c ih =>
    intro a q s o r s' h ea ee
    simp only [aexec] at ea
    split at ea
    · cases ea
    · next i o1 hi' =>
      split at ea
      · cases ea
      · next n hn =>
        cases ea
        obtain ⟨h1, h2, h3⟩ := fixLoop_sound (U := U) (toks := toks) (p := p) hi'
        obtain ⟨q', h'⟩ := h3 q s h
        have hb : aexec T c (setVar x .top i) = .ok o1 := by
          split at h1
          · cases h1
          · next o2 h2 => cases h1; exact h2
        have hf := fun q s r s' h e => ih (setVar x .top i) q s o1 r s' h hb e
        cases hi with
        | none =>
          simp only [exec] at ee
          exact scanLoop_sound (by intro s r s' h; cases h) h2 hn hf _ _ q' s r s' h' ee
        | some hi =>
          simp only [exec] at ee
          split at ee
          · exact scanLoop_sound (by intro s r s' h; cases h; exact ⟨rfl, rfl⟩) h2 hn hf _ _ q' s r s' h' ee
          · cases ee
          · cases ee
          · cases ee
          · cases ee
  | drain v x c ih =>
    intro a q s o r s' h ea ee
    simp only [aexec] at ea
    split at ea
    · cases ea
    · next i o1 hi' =>
      split at ea
      · cases ea
      · next n hn =>
        cases ea
        obtain ⟨h1, h2, h3⟩ := fixLoop_sound (U := U) (toks := toks) (p := p) hi'
        simp only [exec] at ee
        split at ee
        · next ns hns =>
          have h0 : γ U toks (setVar v .top a) p q { s with env := s.env.set v (.vec []) } :=
            h.set (Γ.top _) (by intro n hn; simp at hn)
          obtain ⟨q', h'⟩ := h3 q _ h0
          refine drainLoop_sound h2 hn (fun q s r s' h e => ih _ q s o1 r s' h h1 e) _ ?_ q' _ r s' h' ee
          intro m hm
          have := h.good v
          rw [hns] at this
          exact this m (List.mem_reverse.1 hm)
        · cases ee
  | tryElse x f args c ih =>
    intro a q s o r s' h ea ee
    simp only [aexec] at ea
    simp only [exec] at ee
    obtain ⟨vs, hvs, ee⟩ := bind_ok ee
    split at ea
    · cases ea
    · next w b hb =>
      split at ea
      · cases ea
      · next o1 h1 =>
        split at ee
        · next v ps' hv =>
          cases ee
          obtain ⟨g1, g2, g3⟩ := acall_sound hT h hb hvs hv
          exact joinOut_left (a := .normal (setVar x w b)) (f := .norm) (OOk.some (g1.set g2 g3)) ea
        · exact joinOut_right (ih a q s o1 r s' h h1 ee) ea
        · cases ee
        · cases ee

/-! ### Functions -/

theorem bind_good {xs : List Var} {vs : List Val} (h : ∀ v ∈ vs, GoodVal U v) :
    ∀ y, GoodVal U (bindParams xs vs y) := by
  induction xs generalizing vs with
  | nil => intro y; cases vs <;> trivial
  | cons x xs ih =>
    cases vs with
    | nil => intro y; trivial
    | cons v vs =>
      intro y
      simp only [bindParams, Env.set]
      split
      · exact h v (by simp)
      · exact ih (fun w hw => h w (by simp [hw])) y

/-- The start of a function. -/
theorem start_ok {a : PState} {env : Env} (hp : p ≤ usizeMax) (hg : ∀ y, GoodVal U (env y))
    (h0 : ∀ t, getToken toks ps 0 = .ok t → a.t0.testBit (AI.cls U t) = true) (h1 : a.t1 = AI.TOP)
    (h2 : a.np = false) (h3 : a.cp = false) (h4 : a.qlt = false) (h5 : a.qc = none)
    (h6 : a.clt = true → ∀ c, gp U toks ps 0 = .ok c → c < p)
    (h7 : ∀ x, Γ U toks p 0 ps (look x a.vars) (env x)) : γ U toks a p 0 ⟨ps, env⟩ := by
  refine ⟨hg, hp, Nat.zero_le _, h0, ?_, ?_, ?_, ?_, h6, ?_, h7⟩
  · intro t _
    rw [h1]
    exact AI.testBit_TOP (AI.cls_lt U t)
  · rw [h2]; intro h; cases h
  · rw [h3]; intro h; cases h
  · rw [h4]; intro h; cases h
  · rw [h5]; intro c h; cases h

theorem checkBody_sound {T : Fn → Sum} {C : Ctx} (hU : C.U = U) (hC : C.toks = toks)
    (hT : CallSpec U toks T C.call) {d : FunDef} {a : PState} {ok : PV → Bool} {vs : List Val} {v : Val} {ps' : PS}
    (h : checkBody T d.body a ok = true) (hγ : γ U toks a p q ⟨ps, bindParams d.params vs⟩)
    (e : runBody C d vs ps = .ok (v, ps')) :
    GoodVal U v ∧ ∃ w q', ok w = true ∧ Γ U toks p q' ps' w v := by
  unfold checkBody at h
  split at h
  · cases h
  · next o ho =>
    unfold runBody at e
    split at e
    · next r s' hr =>
      cases e
      obtain ⟨x, hx, q', g1, g2, g3⟩ := exec_sound hU hC hT _ _ _ _ _ _ _ hγ ho hr
      exact ⟨g3, x.1, q', List.all_eq_true.1 h x hx, g2⟩
    · cases e
    · cases e
    · cases e
    · cases e

theorem Γ.bool {b : Bool} {x : Val} (h : x ≠ .bool !b) : Γ U toks p q ps (.bool b) x := by
  cases x with
  | bool c =>
    show c = b
    cases b <;> cases c <;> first | rfl | exact absurd rfl h
  | _ => trivial

theorem Γ.natp {x : Val} (h : ∀ k, x = .nat k → k = p) : Γ U toks p q ps .natp x := by
  cases x with
  | nat k => exact h k rfl
  | _ => trivial

theorem bind_get : ∀ (xs : List Var) (vs : List Val) (i : Nat) (x : Var), xs[i]? = some x →
    (∀ j, j < i → xs[j]? ≠ some x) → bindParams xs vs x = (vs[i]?).getD .unit := by
  intro xs
  induction xs with
  | nil => intro vs i x h; simp at h
  | cons y xs ih =>
    intro vs i x h hj
    cases vs with
    | nil => simp [bindParams]
    | cons v vs =>
      cases i with
      | zero =>
        simp only [List.getElem?_cons_zero, Option.some.injEq] at h
        subst h
        simp [bindParams, Env.set]
      | succ i =>
        have hy : x ≠ y := by
          rintro rfl
          exact hj 0 (by omega) (by simp)
        simp only [List.getElem?_cons_succ] at h
        simp only [bindParams, Env.set, hy, if_false, List.getElem?_cons_succ]
        exact ih vs i x h fun j hji => by
          have := hj (j + 1) (by omega)
          simpa using this

theorem getD_ne {o : Option Val} {b : Bool} (h : o ≠ some (.bool b)) : o.getD .unit ≠ .bool b := by
  cases o with
  | none => simp
  | some v => simpa using h

theorem beq_ne {x y : Var} (h : Nat.beq x y = false) : x ≠ y := by
  rintro rfl
  simp at h

theorem nv_nonop {w : PV} {m : Node} (h : Γ U toks p q ps w (.node m)) (e : w.nv.le .nonop = true) :
    nonopTy m.ty = true := by
  cases w with
  | node v =>
    have e' : v.weak.le .nonop = true := e
    have hk : v.kind ≠ .un := by
      intro hk
      have : v.weak.kind = .any := by unfold NV.weak; rw [hk]
      unfold NV.le at e'
      rw [this] at e'
      simp [NV.nonop, Kind.le] at e'
    have hw : v.weak = v := by
      unfold NV.weak
      split
      · next h => exact absurd h hk
      · rfl
    rw [hw] at e'
    exact (NVOk.le (v := v) h e').1
  | _ => simp [PV.nv, NV.le, NV.any, NV.nonop, Kind.le] at e

theorem callN_sound {T : Fn → Sum} {defs : Fn → FunDef} {fuel : Nat}
    (hT : ∀ f, checkFun T defs f = true) : ∀ n, CallSpec U toks T (callN U defs toks fuel n) := by
  intro n
  induction n with
  | zero => intro f vs ps v ps' _ _ e; cases e
  | succ n ih =>
    intro f vs ps v ps' hpre hvs e
    have hc := hT f
    have e' : runBody ⟨U, toks, fuel, callN U defs toks fuel n⟩ (defs f) vs ps = .ok (v, ps') := e
    have hg := bind_good (xs := (defs f).params) hvs
    have top : ∀ t, getToken toks ps 0 = .ok t → AI.TOP.testBit (AI.cls U t) = true :=
      fun t _ => AI.testBit_TOP (AI.cls_lt U t)
    have plain : γ U toks (start []) 0 0 ⟨ps, bindParams (defs f).params vs⟩ :=
      start_ok (Nat.zero_le _) hg top rfl rfl rfl rfl rfl (by intro h; cases h) (fun x => Γ.top _)
    unfold checkFun at hc
    generalize T f = S at hc hpre
    cases S with
    | plain => exact ⟨(checkBody_sound rfl rfl ih hc plain e').1, trivial⟩
    | nonop =>
      obtain ⟨g, w, q', hw, hΓ⟩ := checkBody_sound rfl rfl ih hc plain e'
      refine ⟨g, ?_⟩
      rintro m rfl
      exact nv_nonop hΓ hw
    | closed =>
      obtain ⟨g, w, q', hw, hΓ⟩ := checkBody_sound rfl rfl ih hc plain e'
      refine ⟨g, ?_⟩
      rintro m rfl
      exact hΓ.facts.cl hw
    | expr =>
      dsimp only at hc
      split at hc
      · next x y z w r hps =>
        simp only [Bool.and_eq_true] at hc
        obtain ⟨⟨⟨⟨hd, c1⟩, c2⟩, c3⟩, c4⟩ := hc
        simp only [distinct, List.all_cons, List.all_nil, Bool.and_true, Bool.and_eq_true,
          Bool.not_eq_true'] at hd
        obtain ⟨⟨d1, d2, d3⟩, ⟨d4, d5⟩, d6⟩ := hd
        have d1 := beq_ne d1
        have d2 := beq_ne d2
        have d3 := beq_ne d3
        have d4 := beq_ne d4
        have d5 := beq_ne d5
        have d6 := beq_ne d6
        rw [hps] at hg
        generalize hxs : x :: y :: z :: w :: r = xs at hps hg
        have ex : bindParams xs vs x = (vs[0]?).getD .unit := by
          refine bind_get xs vs 0 x (by rw [← hxs]; rfl) (by intro j h; omega)
        have ey : bindParams xs vs y = (vs[1]?).getD .unit := by
          refine bind_get xs vs 1 y (by rw [← hxs]; rfl) ?_
          intro j h
          obtain rfl : j = 0 := by omega
          rw [← hxs]; simpa using d1
        have ez : bindParams xs vs z = (vs[2]?).getD .unit := by
          refine bind_get xs vs 2 z (by rw [← hxs]; rfl) ?_
          intro j h
          obtain rfl | rfl : j = 0 ∨ j = 1 := by omega
          · rw [← hxs]; simpa using d2
          · rw [← hxs]; simpa using d4
        have hx : ∀ p, (∀ k, vs.head? = some (.nat k) → k = p) → Γ U toks p 0 ps .natp (bindParams xs vs x) := by
          intro p h
          refine Γ.natp fun k hk => h k ?_
          rw [ex] at hk
          cases vs with
          | nil => simp at hk
          | cons v vs => simpa using hk
        have hlook : ∀ p b, (∀ k, vs.head? = some (.nat k) → k = p) → (bindParams xs vs w ≠ .bool !b) →
            ∀ u, Γ U toks p 0 ps (look u [(x, .natp), (w, .bool b)]) (bindParams xs vs u) := by
          intro p b h hb u
          simp only [look]
          split
          · next hu => rw [Nat.eq_of_beq_eq_true hu]; exact hx p h
          · split
            · next hu => rw [Nat.eq_of_beq_eq_true hu]; exact Γ.bool hb
            · exact Γ.top _
        have hlook' : ∀ p b, (∀ k, vs.head? = some (.nat k) → k = p) → (bindParams xs vs w ≠ .bool !b) →
            vs[1]? ≠ some (.bool true) → vs[2]? ≠ some (.bool true) →
            ∀ u, Γ U toks p 0 ps (look u [(x, .natp), (y, .bool false), (z, .bool false), (w, .bool b)])
              (bindParams xs vs u) := by
          intro p b h hb h1 h2 u
          simp only [look]
          split
          · next hu => rw [Nat.eq_of_beq_eq_true hu]; exact hx p h
          · split
            · next hu => rw [Nat.eq_of_beq_eq_true hu, ey]; exact Γ.bool (getD_ne h1)
            · split
              · next hu => rw [Nat.eq_of_beq_eq_true hu, ez]; exact Γ.bool (getD_ne h2)
              · split
                · next hu => rw [Nat.eq_of_beq_eq_true hu]; exact Γ.bool hb
                · exact Γ.top _
        have hw : bindParams xs vs w ≠ .bool !false ∨ bindParams xs vs w ≠ .bool !true := by
          by_cases h : bindParams xs vs w = .bool !false
          · right; rw [h]; simp
          · exact .inl h
        have mk : ∀ p vars, p ≤ usizeMax → (∀ u, Γ U toks p 0 ps (look u vars) (bindParams xs vs u)) →
            γ U toks (start vars) p 0 ⟨ps, bindParams xs vs⟩ := fun p vars h1 h2 =>
          start_ok h1 hg top rfl rfl rfl rfl rfl (by intro h; cases h) h2
        rw [← hps] at mk
        refine ⟨?_, ?_⟩
        · have : ∃ k, k ≤ usizeMax ∧ ∀ j, vs.head? = some (.nat j) → j = k := by
            cases hv : vs.head? with
            | none => exact ⟨0, Nat.zero_le _, by simp⟩
            | some v =>
              cases v with
              | nat k => exact ⟨k, hpre k hv, by simp⟩
              | _ => exact ⟨0, Nat.zero_le _, by simp⟩
          obtain ⟨k, hk, hj⟩ := this
          rcases hw with hw | hw
          · exact (checkBody_sound rfl rfl ih c3 (mk k _ hk (hps ▸ hlook k false hj hw)) e').1
          · exact (checkBody_sound rfl rfl ih c4 (mk k _ hk (hps ▸ hlook k true hj hw)) e').1
        · intro p hp hk h1 h2 n hn
          subst hn
          have fin : ∀ w q', exprOk w = true → Γ U toks p q' ps' w (.node n) →
              LtB U n p ∧ ∀ c, gp U toks ps' 1 = .ok c → SpB U n c ∧ (SO U n ∨ p ≤ c) := by
            intro w q' hw hΓ
            unfold exprOk at hw
            simp only [Bool.and_eq_true, Bool.or_eq_true] at hw
            have hf := hΓ.facts
            refine ⟨hf.ltP hw.1.1, fun c hc => ⟨hf.tN hw.1.2 c hc, ?_⟩⟩
            rcases hw.2 with h | h
            · exact hf.pn h c hc
            · exact .inl (hf.so h)
          rcases hw with hw | hw
          · obtain ⟨_, w, q', k1, k2⟩ :=
              checkBody_sound rfl rfl ih c1 (mk p _ hp (hps ▸ hlook' p false hk hw h1 h2)) e'
            exact fin w q' k1 k2
          · obtain ⟨_, w, q', k1, k2⟩ :=
              checkBody_sound rfl rfl ih c2 (mk p _ hp (hps ▸ hlook' p true hk hw h1 h2)) e'
            exact fin w q' k1 k2
      · cases hc
    | oper m =>
      dsimp only at hc
      split at hc
      · next x hps =>
        simp only [Bool.and_eq_true] at hc
        obtain ⟨c1, c2⟩ := hc
        obtain ⟨p1, p2⟩ := hpre
        rw [hps] at hg
        have ex : ∀ l, bindParams [x] vs x = .node l → vs.head? = some (.node l) := by
          intro l hl
          cases vs with
          | nil => cases hl
          | cons v vs => simpa [bindParams, Env.set] using hl
        have hlook : ∀ p v, (∀ l, vs.head? = some (.node l) → NVOk U toks p 0 ps v l) →
            ∀ u, Γ U toks p 0 ps (look u [(x, .node v)]) (bindParams [x] vs u) := by
          intro p v h u
          simp only [look]
          split
          · next hu =>
            rw [Nat.eq_of_beq_eq_true hu]
            exact Γ.node fun l hl => h l (ex l hl)
          · exact Γ.top _
        have g2 : γ U toks { start [(x, .node { NV.any with tc := true })] with t0 := m } 0 0
            ⟨ps, bindParams (defs f).params vs⟩ := by
          rw [hps]
          refine start_ok (Nat.zero_le _) hg p1 rfl rfl rfl rfl rfl (by intro h; cases h) ?_
          refine hlook 0 _ fun l hl => ?_
          exact ⟨(by intro h; cases h), (by intro h; cases h), (by intro c h; cases h), (by intro h; cases h),
            (by intro h; cases h), (by intro h; cases h), fun _ => p2 l hl, (by intro h; cases h),
            (by intro h; cases h), (by intro h; cases h), fun _ _ => .inr (Nat.zero_le _)⟩
        obtain ⟨k1, w, q', k2, k3⟩ := checkBody_sound rfl rfl ih c2 g2 e'
        refine ⟨k1, ?_⟩
        rintro n rfl
        refine ⟨k3.facts.tN k2, ?_⟩
        intro p hp hl hc
        have g1 : γ U toks { start [(x, .node { NV.any with tc := true, ltp := true })] with
            t0 := m, clt := true } p 0 ⟨ps, bindParams (defs f).params vs⟩ := by
          rw [hps]
          refine start_ok hp hg p1 rfl rfl rfl rfl rfl (fun _ => hc) ?_
          refine hlook p _ fun l hl' => ?_
          exact ⟨fun _ => hl l hl', (by intro h; cases h), (by intro c h; cases h), (by intro h; cases h),
            (by intro h; cases h), (by intro h; cases h), fun _ => p2 l hl', (by intro h; cases h),
            (by intro h; cases h), (by intro h; cases h), fun _ _ => .inr (Nat.zero_le _)⟩
        obtain ⟨_, w, q', k2, k3⟩ := checkBody_sound rfl rfl ih c1 g1 e'
        simp only [Bool.and_eq_true] at k2
        exact k3.facts.ltP k2.1
      · cases hc

end Verif.PI
