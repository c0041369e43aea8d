import Verif.Proofs.SoundExp
/-! Soundness of the analysis of commands. -/
namespace Verif.AI
open Core Spec Interp

variable {U : Unicode} {toks : List Token} {w : Token → Nat} {z : Bool}

/-! ### Children -/

theorem symLeaf_of (hU : U.Lawful) {as : List Alt} {c : Node} (hc : Is U toks as c) {kw : Kw}
    (hk : isSym kw = true) (h : (as.all fun c => c.leaf && c.lit.le (bit kw.ctorIdx)) = true) :
    SymLeaf kw c := by
  obtain ⟨ho, a, ha, hs⟩ := hc
  have := List.all_eq_true.1 h a ha
  simp only [Bool.and_eq_true, Alt.leaf, tyEq_iff] at this
  obtain ⟨⟨⟨h1, h2⟩, h3⟩, h4⟩ := this
  have h2 := Nat.eq_of_beq_eq_true h2
  have hl := Mask.le_has h4 hs.lit
  rw [testBit_bit, decide_eq_true_eq] at hl
  refine ⟨hs.ty.trans h1, ?_, ?_⟩
  · unfold nodeCls at hl
    split at hl
    · next t ht =>
      refine ⟨t, ht, ?_⟩
      exact upper_sym_eq hU (clsOf_eq.1 hl.symm) (sym_chars kw (mem_kw_all kw) hk)
    · have := kw_idx_lt kw (mem_kw_all kw)
      unfold NOTOK at hl
      unfold OTHER at this
      omega
  · intro e he
    have hm := look_of_mem he
    have hat : arrayAt c.kids e.1 ≠ none := by rw [arrayAt_look]; simpa using hm
    rcases hb : arrayAt c.kids e.1 with _ | _ | _
    · exact absurd hb hat
    · have := hs.node _ hb
      rw [h2] at this
      simp at this
    · exact testBit_commentKeys.1 (Mask.le_has h3 (hs.vec _ hb))

theorem closed_of {c : Node} (h : Open U toks c ∧ Close U c) : Closed U toks c := h.1.closed h.2

theorem key_ne {k k' : Key} (h : (!Nat.beq k.ctorIdx k'.ctorIdx) = true) : k ≠ k' := by
  rintro rfl
  rw [Nat.beq_refl] at h
  cases h

theorem key_or {k k' : Key} {b : Bool} (h : (!Nat.beq k.ctorIdx k'.ctorIdx || b) = true) (hk : k = k') :
    b = true := by
  subst hk
  simpa [Nat.beq_refl] using h

/-! ### State transformers -/

theorem anext_sound (he : Ends toks) {a b : AState} {s : St} {ps : PS} (h : GS U toks a s)
    (hb : anext a = .ok b) (hn : nextToken toks s.ps = .ok ps) :
    GS U toks b ⟨ps, s.env⟩ ∧ Go w z toks a s b ⟨ps, s.env⟩ := by
  unfold anext at hb
  split at hb
  · next hc =>
    cases hb
    obtain ⟨h1, h2, h3⟩ := nextToken_wf he h.wf hn
    refine ⟨⟨h1, ⟨?_, fun t _ => testBit_TOP (cls_lt U t)⟩, h.vars, h.nodup, fun x hx => by cases hx⟩, ?_⟩
    · intro t ht
      apply h.mask.m1
      have := getToken_zero h1.inp ht
      unfold getToken
      rw [h3]
      dsimp only
      unfold tokAt
      rw [this]
    · unfold Go
      rw [endOf_unc]
      dsimp only
      rw [h2]
      have : endOf toks a.cov s.ps = trailEnd toks s.ps.pos := by
        rw [← endOf_commit, hc]; rfl
      rw [this]
      exact Step.refl _ _
  · cases hb

theorem GoV.then {a b c : AState} {s s' s'' : St} {v : List Node} (h : GoV w z toks a s v b s')
    (h' : Step w z toks (v ++ owned b.vars s'.env) (endOf toks b.cov s'.ps) (owned c.vars s''.env)
      (endOf toks c.cov s''.ps)) : Go w z toks a s c s'' := Step.trans h h'

/-- `push_node`. -/
theorem apush_sound (hU : U.Lawful) (hz : Ignores z w) {x : Var} {k : Key} {p : AVal × AState} {b : AState}
    {s : St} {v : Val} (h : GS U toks p.2 s) (hv : Γ U toks p.1 v) (hb : apush x k p = .ok b) :
    ∃ n c, s.env x = .node n ∧ v = .node c ∧
      GS U toks b ⟨s.ps, s.env.set x (.node (n.pushNode k c))⟩ ∧
      Step w z toks (own v ++ owned p.2.vars s.env) (endOf toks p.2.cov s.ps)
        (owned b.vars (s.env.set x (.node (n.pushNode k c)))) (endOf toks b.cov s.ps) := by
  obtain ⟨av, a⟩ := p
  unfold apush at hb
  dsimp only at hb h hv
  split at hb
  · cases hb
  · next hck =>
    have hck : ¬ IsCommentKey k := by
      rw [← testBit_commentKeys]; exact hck
    split at hb
    · next hsep =>
      split at hb
      · next as r ht =>
        split at hb
        · next hchild =>
          split at hb
          · cases hb
          · next as' hm =>
            cases hb
            -- the child
            have hkid : ∃ c, v = .node c ∧ Closed U toks c ∧ ∀ b ∈ as, ∀ p, b.lit.testBit p = true → KidOk U b.ty p k c := by
              unfold sepOk at hsep
              split at hsep
              · next cs =>
                cases v <;> try exact hv.elim
                next c =>
                simp only [Bool.and_eq_true] at hsep
                obtain ⟨⟨hcl, hsemi⟩, hcomma⟩ := hsep
                have hv : Is U toks cs c := hv
                refine ⟨c, rfl, closed_of ⟨hv.1, Is.close hv hcl⟩, ?_⟩
                intro b hb p hp
                refine ⟨fun h => absurd h hck, fun _ => hv.1.j.ty.2, fun hk => ?_, fun hk => ?_, ?_, ?_⟩
                · exact symLeaf_of hU hv (by decide) (key_or hsemi hk)
                · exact symLeaf_of hU hv (by decide) (key_or hcomma hk)
                · intro m hm' _
                  have := List.all_eq_true.1 hchild b hb
                  unfold childOk at this
                  rw [hm', Bool.and_eq_true] at this
                  obtain ⟨_, ca, hca, hs⟩ := hv
                  have := List.all_eq_true.1 this.1 ca hca
                  rw [hs.ty]
                  exact this
                · intro r hr hkey hpp _
                  have := List.all_eq_true.1 hchild b hb
                  unfold childOk at this
                  rw [Bool.and_eq_true] at this
                  have := List.all_eq_true.1 this.2 r hr
                  rw [Role.applies_iff hkey hpp hp] at this
                  obtain ⟨_, ca, hca, hs⟩ := hv
                  exact Role.fits_sound (List.all_eq_true.1 this ca hca) hs
              · cases v <;> try exact hv.elim
                next c =>
                simp only [Bool.and_eq_true] at hsep
                have hv : Open U toks c ∧ Close U c := hv
                refine ⟨c, rfl, closed_of hv, ?_⟩
                intro b hb p hp
                refine ⟨fun h => absurd h hck, fun _ => hv.1.j.ty.2, fun hk => ?_, fun hk => ?_, ?_, ?_⟩
                · exact absurd hk (key_ne hsep.1)
                · exact absurd hk (key_ne hsep.2)
                · intro m hm' _
                  have := List.all_eq_true.1 hchild b hb
                  unfold childAny at this
                  rw [hm'] at this
                  cases this
                · intro r hr hkey hpp _
                  have := List.all_eq_true.1 hchild b hb
                  unfold childAny at this
                  rw [Bool.and_eq_true] at this
                  have := List.all_eq_true.1 this.2 r hr
                  rw [Role.applies_iff hkey hpp hp] at this
                  cases this
              · cases hsep
            obtain ⟨c, rfl, hcl, hkid⟩ := hkid
            have hg := h.get ht
            cases he : s.env x <;> rw [he] at hg <;> try exact hg.elim
            next n =>
            obtain ⟨g1, g2⟩ := push_sound (w := w) (z := z) hg hz hck hcl hkid hm (endOf toks a.cov s.ps)
            obtain ⟨u1, u2⟩ := h.update ht (u := .node as') (y := .node (n.pushNode k c)) g1
              (c := commit a.cov) (fun x' hx' => absurd hx' (commit_ne _ _))
            refine ⟨n, c, rfl, rfl, u1, ?_⟩
            dsimp only
            rw [endOf_commit]
            have hp := owned_take ht s.env
            rw [he] at hp
            refine (Step.perm (l' := [n, c] ++ owned r s.env) ?_ _).trans ?_
            · exact (hp.append_left [c]).trans (List.Perm.swap _ _ _)
            · exact (g2.frame _).trans (Step.perm u2.symm _)
        · cases hb
      · cases hb
    · split at hb <;> cases hb

/-- `push_node_vec`. -/
theorem apushVec_sound {x : Var} {k : Key} {p : AVal × AState} {b : AState}
    {s : St} {v : Val} (h : GS U toks p.2 s) (hv : Γ U toks p.1 v) (hb : apushVec x k p = .ok b) :
    ∃ n cs, s.env x = .node n ∧ v = .vec cs ∧
      GS U toks b ⟨s.ps, s.env.set x (.node (n.pushVec k cs))⟩ ∧
      Step w z toks (own v ++ owned p.2.vars s.env) (endOf toks p.2.cov s.ps)
        (owned b.vars (s.env.set x (.node (n.pushVec k cs)))) (endOf toks b.cov s.ps) := by
  obtain ⟨av, a⟩ := p
  unfold apushVec at hb
  dsimp only at hb h hv
  split at hb
  · cases hb
  · next hck =>
    simp only [Bool.or_eq_true, not_or] at hck
    obtain ⟨⟨hck, hsemi⟩, hcomma⟩ := hck
    have hck : ¬ IsCommentKey k := by
      rw [← testBit_commentKeys]; exact hck
    split at hb
    · next cs _ _ _ =>
      split at hb
      · next hcl =>
        split at hb
        · next as r ht =>
          split at hb
          · cases hb
          · next hchild =>
            split at hb
            · cases hb
            · next as' hm =>
              cases hb
              cases v <;> try exact hv.elim
              next ns =>
              obtain ⟨hv, _⟩ := hv
              have hcl' : ∀ c ∈ ns, Closed U toks c := fun c hc =>
                closed_of ⟨(hv c hc).1, Is.close (hv c hc) hcl⟩
              have hkid : ∀ b ∈ as, ∀ p, b.lit.testBit p = true → ∀ c ∈ ns, KidOk U b.ty p k c := by
                intro b hb p hp c hc
                refine ⟨fun h => absurd h hck, fun _ => (hv c hc).1.j.ty.2, fun hk => ?_, fun hk => ?_, ?_, ?_⟩
                · exact absurd (key_beq.2 hk) hsemi
                · exact absurd (key_beq.2 hk) hcomma
                · intro m hm' _
                  simp only [Bool.not_eq_true', Bool.not_eq_false] at hchild
                  have := List.all_eq_true.1 hchild b hb
                  unfold childOk at this
                  rw [hm', Bool.and_eq_true] at this
                  obtain ⟨_, ca, hca, hs⟩ := hv c hc
                  have := List.all_eq_true.1 this.1 ca hca
                  rw [hs.ty]
                  exact this
                · intro r hr hkey hpp _
                  simp only [Bool.not_eq_true', Bool.not_eq_false] at hchild
                  have := List.all_eq_true.1 hchild b hb
                  unfold childOk at this
                  rw [Bool.and_eq_true] at this
                  have := List.all_eq_true.1 this.2 r hr
                  rw [Role.applies_iff hkey hpp hp] at this
                  obtain ⟨_, ca, hca, hs⟩ := hv c hc
                  exact Role.fits_sound (List.all_eq_true.1 this ca hca) hs
              have hg := h.get ht
              cases he : s.env x <;> rw [he] at hg <;> try exact hg.elim
              next n =>
              obtain ⟨g1, g2⟩ := pushVec_sound (w := w) (z := z) hg hck hcl' hkid hm (endOf toks a.cov s.ps)
              obtain ⟨u1, u2⟩ := h.update ht (u := .node as') (y := .node (n.pushVec k ns)) g1
                (c := commit a.cov) (fun x' hx' => absurd hx' (commit_ne _ _))
              refine ⟨n, ns, rfl, rfl, u1, ?_⟩
              dsimp only
              rw [endOf_commit]
              have hp := owned_take ht s.env
              rw [he] at hp
              refine (Step.perm (l' := (n :: ns) ++ owned r s.env) ?_ _).trans ?_
              · refine (hp.append_left ns).trans ?_
                exact List.perm_middle
              · exact (g2.frame _).trans (Step.perm u2.symm _)
        · cases hb
      · cases hb
    · cases hb

/-- `push` on a vector. -/
theorem aappend_sound {x : Var} {p : AVal × AState} {b : AState}
    {s : St} {v : Val} (h : GS U toks p.2 s) (hv : Γ U toks p.1 v) (hb : aappend x p = .ok b) :
    ∃ ns c, s.env x = .vec ns ∧ v = .node c ∧
      GS U toks b ⟨s.ps, s.env.set x (.vec (ns ++ [c]))⟩ ∧
      Step w z toks (own v ++ owned p.2.vars s.env) (endOf toks p.2.cov s.ps)
        (owned b.vars (s.env.set x (.vec (ns ++ [c])))) (endOf toks b.cov s.ps) := by
  obtain ⟨av, a⟩ := p
  unfold aappend at hb
  dsimp only at hb h hv
  split at hb
  · next cs =>
    split at hb
    · next as z' o m r ht =>
      split at hb
      · next hle =>
        cases hb
        simp only [Bool.and_eq_true] at hle
        cases v <;> try exact hv.elim
        next c =>
        have hg := h.get ht
        cases he : s.env x <;> rw [he] at hg <;> try exact hg.elim
        next ns =>
        obtain ⟨g1, g2, g3, g4⟩ := hg
        have hu : Γ U toks (.vec (joinAlts as cs) false z' (o || m)) (.vec (ns ++ [c])) := by
          refine ⟨?_, fun h => by simp at h, fun h => ?_, fun h => ?_⟩
          · intro n hn
            rcases List.mem_append.1 hn with hn | hn
            · exact altsLe_is hle.1 (g1 n hn)
            · rw [List.mem_singleton.1 hn]
              exact altsLe_is hle.2 hv
          · rw [List.length_append, List.length_singleton] at h
            exact g2 (by omega)
          · rw [List.length_append, List.length_singleton] at h
            rw [Bool.or_eq_true]
            by_cases h1 : ns.length = 1
            · exact .inl (g3 h1)
            · exact .inr (g4 (by omega))
        obtain ⟨u1, u2⟩ := h.update ht hu (c := a.cov) (by
          intro x' hx'
          refine ⟨hx', ?_⟩
          rintro rfl
          obtain ⟨n', hn', _⟩ := h.fresh _ hx'
          rw [he] at hn'
          cases hn')
        refine ⟨ns, c, rfl, rfl, u1, ?_⟩
        have hp := owned_take ht s.env
        rw [he] at hp
        refine Step.perm ?_ _
        refine ((hp.append_left [c]).trans ?_).trans u2.symm
        show ([c] ++ (ns ++ owned r s.env)).Perm ((ns ++ [c]) ++ owned r s.env)
        rw [← List.append_assoc]
        exact List.Perm.append_right _ List.perm_append_comm
      · cases hb
    · cases hb
  · cases hb

/-- `node_type = nt`. -/
theorem asetType_sound (hU : U.Lawful) {x : Var} {nt : NodeType} {a b : AState}
    {s : St} (h : GS U toks a s) (hb : asetType x nt a = .ok b) :
    ∃ n, s.env x = .node n ∧ GS U toks b ⟨s.ps, s.env.set x (.node (n.setType nt))⟩ ∧
      Go w z toks a s b ⟨s.ps, s.env.set x (.node (n.setType nt))⟩ := by
  unfold asetType at hb
  split at hb
  · next as r ht =>
    split at hb
    · next hc =>
      cases hb
      simp only [Bool.and_eq_true] at hc
      have hg := h.get ht
      cases he : s.env x <;> rw [he] at hg <;> try exact hg.elim
      next n =>
      obtain ⟨g1, g2⟩ := setType_sound (w := w) (z := z) hU hg hc.1 (by
        intro b hb
        have := List.all_eq_true.1 hc.2 b hb
        simp only [Bool.and_eq_true, Bool.not_eq_true'] at this
        refine ⟨this.1.1, this.1.2, ?_⟩
        intro ha
        have h2 := this.2
        rw [tyEq_iff.2 ha] at h2
        simpa using h2) (endOf toks a.cov s.ps)
      obtain ⟨u1, u2⟩ := h.update ht (u := .node _) (y := .node (n.setType nt)) g1 (c := a.cov) (by
        intro x' hx'
        refine ⟨hx', ?_⟩
        rintro rfl
        obtain ⟨n', hn', hf⟩ := h.fresh _ hx'
        rw [he] at hn'
        cases hn'
        exact ⟨_, rfl, hf.setType nt⟩)
      refine ⟨n, rfl, u1, ?_⟩
      have hp := owned_take ht s.env
      rw [he] at hp
      exact ((Step.perm hp _).trans (g2.frame _)).trans (Step.perm u2.symm _)
    · cases hb
  · cases hb

/-! ### Outcomes of commands -/

/-- The outcome of a command fits. -/
def ExecOk (U : Unicode) (w : Token → Nat) (z : Bool) (toks : List Token) (o : AOut) (a : AState)
    (s : St) : Out (Flow × St) → Prop
  | .ok (.norm, s') => ∃ b ∈ o.norm, GS U toks b s' ∧ Go w z toks a s b s'
  | .ok (.brk, s') => ∃ b ∈ o.brk, GS U toks b s' ∧ Go w z toks a s b s'
  | .ok (.ret v, s') => ∃ r ∈ o.ret, Γ U toks r.1 v ∧ s'.ps.WF toks ∧ MaskOk U toks r.2.1 r.2.2 s'.ps ∧
      Step w z toks (owned a.vars s.env) (endOf toks a.cov s.ps) (own v) (trailEnd toks s'.ps.pos)
  | .err _ => True
  | .panic p => p = .emptyLiteral
  | .timeout => True

/-- One outcome covers another. -/
structure OutLe (U : Unicode) (w : Token → Nat) (z : Bool) (toks : List Token) (o o' : AOut) : Prop where
  norm : Cover U w z toks o.norm o'.norm
  brk : Cover U w z toks o.brk o'.brk
  ret : ∀ r ∈ o.ret, r ∈ o'.ret

theorem ExecOk.mono {o o' : AOut} {a : AState} {s : St} {r : Out (Flow × St)}
    (h : ExecOk U w z toks o a s r) (hle : OutLe U w z toks o o') : ExecOk U w z toks o' a s r := by
  rcases r with ⟨_ | _ | _, s'⟩ | _ | _ | _
  · obtain ⟨b, hb, h1, h2⟩ := h
    obtain ⟨c, hc, h3, h4⟩ := hle.norm b hb s' h1
    exact ⟨c, hc, h3, Step.trans h2 h4⟩
  · obtain ⟨b, hb, h1, h2⟩ := h
    obtain ⟨c, hc, h3, h4⟩ := hle.brk b hb s' h1
    exact ⟨c, hc, h3, Step.trans h2 h4⟩
  · obtain ⟨b, hb, h1⟩ := h
    exact ⟨b, hle.ret b hb, h1⟩
  · trivial
  · exact h
  · trivial

theorem ExecOk.after {o : AOut} {a b : AState} {s s' : St} {r : Out (Flow × St)}
    (h : ExecOk U w z toks o b s' r) (hg : Go w z toks a s b s') : ExecOk U w z toks o a s r := by
  rcases r with ⟨_ | _ | _, s'⟩ | _ | _ | _
  · obtain ⟨b, hb, h1, h2⟩ := h
    exact ⟨b, hb, h1, Step.trans hg h2⟩
  · obtain ⟨b, hb, h1, h2⟩ := h
    exact ⟨b, hb, h1, Step.trans hg h2⟩
  · obtain ⟨b, hb, h1, h2, h3, h4⟩ := h
    exact ⟨b, hb, h1, h2, h3, Step.trans hg h4⟩
  · trivial
  · exact h
  · trivial

theorem OutLe.merge {o o' : AOut} (h : o.merge = .ok o') : OutLe U w z toks o o' := by
  unfold AOut.merge at h
  split at h
  · cases h
  · next n hn =>
    split at h
    · cases h
    · next b hb =>
      cases h
      exact ⟨merge_cover hn, merge_cover hb, fun _ h => h⟩

theorem OutLe.left (o o' : AOut) : OutLe U w z toks o (o.append o') :=
  ⟨Cover.of_subset fun _ h => List.mem_append_left _ h, Cover.of_subset fun _ h => List.mem_append_left _ h,
    fun _ h => List.mem_append_left _ h⟩

theorem OutLe.right (o o' : AOut) : OutLe U w z toks o' (o.append o') :=
  ⟨Cover.of_subset fun _ h => List.mem_append_right _ h, Cover.of_subset fun _ h => List.mem_append_right _ h,
    fun _ h => List.mem_append_right _ h⟩

theorem OutLe.trans {o o' o'' : AOut} (h : OutLe U w z toks o o') (h' : OutLe U w z toks o' o'') :
    OutLe U w z toks o o'' :=
  ⟨h.norm.trans h'.norm, h.brk.trans h'.brk, fun r hr => h'.ret r (h.ret r hr)⟩

theorem runAll_ok {α : Type} {f : α → R AOut} {l : List α} {o : AOut} (h : runAll f l = .ok o) :
    ∀ a ∈ l, ∃ o', f a = .ok o' ∧ OutLe U w z toks o' o := by
  induction l generalizing o with
  | nil => simp
  | cons x l ih =>
    simp only [runAll] at h
    split at h
    · cases h
    · next o1 h1 =>
      split at h
      · cases h
      · next o2 h2 =>
        cases h
        intro a ha
        rcases List.mem_cons.1 ha with rfl | ha
        · exact ⟨o1, h1, OutLe.left _ _⟩
        · obtain ⟨o', g1, g2⟩ := ih h2 a ha
          exact ⟨o', g1, g2.trans (OutLe.right _ _)⟩

theorem fixLoop_ok {body : List AState → R AOut} {n : Nat} {i0 i : List AState} {o : AOut}
    (h : fixLoop body n i0 = .ok (i, o)) :
    body i = .ok o ∧ Cover U w z toks o.norm i ∧ Cover U w z toks i0 i := by
  induction n generalizing i0 with
  | zero => simp [fixLoop, bad] at h
  | succ n ih =>
    simp only [fixLoop] at h
    split at h
    · cases h
    · next o' ho =>
      split at h
      · next hle =>
        cases h
        exact ⟨ho, Cover.of_le hle, Cover.refl _⟩
      · split at h
        · cases h
        · next j hj =>
          obtain ⟨h1, h2, h3⟩ := ih h
          refine ⟨h1, h2, Cover.trans ?_ h3⟩
          exact (Cover.of_subset fun a ha => List.mem_append_left _ ha).trans (merge_cover hj)

/-- `thenAll` after a right-hand side. -/
theorem thenAll_ok {α : Type} {r : R (List α)} {f : α → R AState} {o : AOut} (h : thenAll r f = .ok o) :
    ∃ l, r = .ok l ∧ ∀ p ∈ l, ∃ b, f p = .ok b ∧ b ∈ o.norm := by
  unfold thenAll at h
  split at h
  · cases h
  · next l =>
    split at h
    · cases h
    · next l' hl =>
      cases h
      refine ⟨l, rfl, fun p hp => ?_⟩
      obtain ⟨b, hb, hf⟩ := mapR_ok hl p hp
      exact ⟨b, hf, hb⟩

/-! ### Loops -/

theorem iterate_sound {f : St → Out (Flow × St)} {i : List AState} {o : AOut}
    (hf : ∀ a ∈ i, ∀ s, GS U toks a s → ExecOk U w z toks o a s (f s))
    (hstab : Cover U w z toks o.norm i) {a0 : AState} {s0 : St} :
    ∀ n s, (∃ a ∈ i, GS U toks a s ∧ Go w z toks a0 s0 a s) →
      ExecOk U w z toks ⟨o.brk, [], o.ret⟩ a0 s0 (iterate f n s) := by
  intro n
  induction n with
  | zero => intro s _; trivial
  | succ n ih =>
    rintro s ⟨a, ha, hg, hgo⟩
    have := (hf a ha s hg).after hgo
    simp only [iterate]
    rcases hr : f s with ⟨_ | _ | _, s'⟩ | _ | _ | _ <;> rw [hr] at this <;> dsimp only
    · obtain ⟨b, hb, h1, h2⟩ := this
      obtain ⟨c, hc, h3, h4⟩ := hstab b hb s' h1
      exact ih s' ⟨c, hc, h3, Step.trans h2 h4⟩
    · exact this
    · exact this
    · trivial
    · exact this
    · trivial

theorem scanLoop_sound {f : St → Out (Flow × St)} {x : Var} {i : List AState} {o oo : AOut}
    {done : St → Out (Flow × St)} {a0 : AState} {s0 : St}
    (hf : ∀ a ∈ i, ∀ s, GS U toks a s → ∀ k, ExecOk U w z toks o a s (f ⟨s.ps, s.env.set x (.nat k)⟩))
    (hstab : Cover U w z toks o.norm i)
    (hoo : OutLe U w z toks ⟨o.brk, [], o.ret⟩ oo)
    (hdone : ∀ s, (∃ a ∈ i, GS U toks a s ∧ Go w z toks a0 s0 a s) → ExecOk U w z toks oo a0 s0 (done s)) :
    ∀ n k s, (∃ a ∈ i, GS U toks a s ∧ Go w z toks a0 s0 a s) →
      ExecOk U w z toks oo a0 s0 (scanLoop f x done n k s) := by
  intro n
  induction n with
  | zero => intro k s h; exact hdone s h
  | succ n ih =>
    rintro k s ⟨a, ha, hg, hgo⟩
    have := (hf a ha s hg k).after hgo
    simp only [scanLoop]
    rcases hr : f ⟨s.ps, s.env.set x (.nat k)⟩ with ⟨_ | _ | _, s'⟩ | _ | _ | _ <;> rw [hr] at this <;> dsimp only
    · obtain ⟨b, hb, h1, h2⟩ := this
      obtain ⟨c, hc, h3, h4⟩ := hstab b hb s' h1
      exact ih _ s' ⟨c, hc, h3, Step.trans h2 h4⟩
    · have h' : ExecOk U w z toks ⟨o.brk, [], o.ret⟩ a0 s0 (.ok (.norm, s')) := this
      exact h'.mono hoo
    · have h' : ExecOk U w z toks ⟨o.brk, [], o.ret⟩ a0 s0 (.ok (.ret _, s')) := this
      exact h'.mono hoo
    · trivial
    · exact this
    · trivial

theorem drainLoop_sound {f : St → Out (Flow × St)} {x : Var} {i : List AState} {o : AOut}
    {as : List Alt} {L0 : List Node} {e0 : Nat}
    (hf : ∀ a ∈ i, ∀ s, GS U toks a s → ∀ n, Is U toks as n →
      ∃ b, GS U toks b ⟨s.ps, s.env.set x (.node n)⟩ ∧
        Step w z toks (n :: owned a.vars s.env) (endOf toks a.cov s.ps)
          (owned b.vars (s.env.set x (.node n))) (endOf toks b.cov s.ps) ∧
        ExecOk U w z toks o b ⟨s.ps, s.env.set x (.node n)⟩ (f ⟨s.ps, s.env.set x (.node n)⟩))
    (hstab : Cover U w z toks o.norm i) (hb : o.brk = []) (hr : o.ret = []) :
    ∀ ns s, (∀ n ∈ ns, Is U toks as n) →
      (∃ a ∈ i, GS U toks a s ∧ Step w z toks L0 e0 (ns ++ owned a.vars s.env) (endOf toks a.cov s.ps)) →
      match drainLoop f x ns s with
      | .ok (.norm, s') => ∃ a ∈ i, GS U toks a s' ∧ Step w z toks L0 e0 (owned a.vars s'.env) (endOf toks a.cov s'.ps)
      | .ok (_, _) => False
      | .err _ => True
      | .panic p => p = .emptyLiteral
      | .timeout => True := by
  intro ns
  induction ns with
  | nil => rintro s _ ⟨a, ha, h1, h2⟩; exact ⟨a, ha, h1, h2⟩
  | cons n ns ih =>
    rintro s hns ⟨a, ha, h1, h2⟩
    obtain ⟨b, g1, g2, g3⟩ := hf a ha s h1 n (hns n List.mem_cons_self)
    simp only [drainLoop]
    rcases hx : f ⟨s.ps, s.env.set x (.node n)⟩ with ⟨_ | _ | _, s'⟩ | _ | _ | _ <;> rw [hx] at g3 <;> dsimp only
    · obtain ⟨c, hc, k1, k2⟩ := g3
      obtain ⟨d, hd, k3, k4⟩ := hstab c hc s' k1
      refine ih s' (fun n hn => hns n (List.mem_cons_of_mem _ hn)) ⟨d, hd, k3, ?_⟩
      refine h2.trans ?_
      refine (Step.perm (l' := ns ++ (n :: owned a.vars s.env)) ?_ _).trans ?_
      · exact List.perm_middle.symm
      · exact ((g2.trans (Step.trans k2 k4))).frameL ns
    · obtain ⟨c, hc, _⟩ := g3
      rw [hb] at hc
      simp at hc
    · obtain ⟨c, hc, _⟩ := g3
      rw [hr] at hc
      simp at hc
    · exact g3

theorem free_vars {vars : List (Var × AVal)} {env : Env} (h : ∀ p ∈ vars, Γ U toks p.2 (env p.1))
    (hf : (vars.all fun y => y.2.free) = true) (e : Nat) : Step w z toks (owned vars env) e [] e := by
  induction vars with
  | nil => exact Step.refl _ _
  | cons p l ih =>
    simp only [List.all_cons, Bool.and_eq_true] at hf
    rw [owned_cons]
    exact ((free_step (h p List.mem_cons_self) hf.1 e).frame _).trans
      (ih (fun q hq => h q (List.mem_cons_of_mem _ hq)) hf.2)

theorem setVar_go {a b : AState} {s : St} (h : GS U toks a s) {x : Var} {v : AVal} {y : Val}
    (hv : Γ U toks v y) (hd : setVar x v a = .ok b) :
    GS U toks b ⟨s.ps, s.env.set x y⟩ ∧
      Step w z toks (own y ++ owned a.vars s.env) (endOf toks a.cov s.ps)
        (owned b.vars (s.env.set x y)) (endOf toks b.cov s.ps) := by
  obtain ⟨h1, _, h3⟩ := setVar_sound (w := w) (z := z) h hv hd
  exact ⟨h1, h3⟩

theorem exec_sound (hU : U.Lawful) (hends : Ends toks) (hz : Ignores z w) {T : Fn → List Entry} {fuel : Nat}
    {call : Fn → List Val → PS → Out (Val × PS)} (hcall : CallSpec U w z toks T call) :
    ∀ (c : Cmd) (a : AState) (o : AOut), aexec T c a = .ok o → ∀ s, GS U toks a s →
      ExecOk U w z toks o a s (exec ⟨U, toks, fuel, call⟩ c s) := by
  intro c
  induction c with
  | skip =>
    intro a o ho s h
    cases ho
    exact ⟨a, by simp [AOut.normal], h, Step.refl _ _⟩
  | seq c d ihc ihd =>
    intro a o ho s h
    simp only [aexec] at ho
    split at ho
    · cases ho
    · next o1 h1 =>
      split at ho
      · cases ho
      · next o2 h2 =>
        have hc := ihc a o1 h1 s h
        have hle : OutLe U w z toks _ o := OutLe.merge ho
        simp only [exec]
        rcases hr : exec ⟨U, toks, fuel, call⟩ c s with ⟨_ | _ | _, s'⟩ | _ | _ | _ <;> rw [hr] at hc <;> dsimp only
        · obtain ⟨b, hb, g1, g2⟩ := hc
          obtain ⟨o', k1, k2⟩ := runAll_ok (U := U) (w := w) (z := z) (toks := toks) h2 b hb
          exact ((ihd b o' k1 s' g1).after g2).mono (k2.trans ((OutLe.right _ _).trans hle))
        · exact ExecOk.mono (o := ⟨[], o1.brk, o1.ret⟩) hc ((OutLe.left _ _).trans hle)
        · exact ExecOk.mono (o := ⟨[], o1.brk, o1.ret⟩) hc ((OutLe.left _ _).trans hle)
        · trivial
        · exact hc
        · trivial
  | next =>
    intro a o ho s h
    simp only [aexec] at ho
    split at ho
    · cases ho
    · next b hb =>
      cases ho
      simp only [exec]
      rcases nextToken_cases toks s.ps h.wf.inp with ⟨ps, hn, _⟩ | ⟨t, _, hn⟩
      · rw [hn]
        obtain ⟨g1, g2⟩ := anext_sound (w := w) (z := z) hends h hb hn
        exact ⟨b, by simp [AOut.normal], g1, g2⟩
      · rw [hn]; trivial
  | set x e =>
    intro a o ho s h
    have hset : ∀ e, thenAll (aeval T e a) (fun p => setVar x p.1 p.2) = .ok o →
        ExecOk U w z toks o a s (exec ⟨U, toks, fuel, call⟩ (.set x e) s) := by
      intro e ho
      obtain ⟨l, hl, hall⟩ := thenAll_ok ho
      have he := aeval_sound hU (fuel := fuel) hcall h hl
      simp only [exec]
      rcases hr : evalExp ⟨U, toks, fuel, call⟩ s e with ⟨v, s'⟩ | _ | _ | _ <;> rw [hr] at he
      · obtain ⟨p, hp, g1, g2, g3⟩ := he
        obtain ⟨b, hb, hbm⟩ := hall p hp
        obtain ⟨k1, k2⟩ := setVar_go (w := w) (z := z) g1 g2 hb
        exact ⟨b, hbm, k1, Step.trans g3 k2⟩
      · trivial
      · exact he
      · trivial
    simp only [aexec] at ho
    unfold aset at ho
    split at ho
    · next nt =>
      split at ho
      · cases ho
      · next v b hb =>
        split at ho
        · cases ho
        · next b' hb' =>
          cases ho
          obtain ⟨hcov, h1, h2⟩ := aconstruct_sound (w := w) (z := z) h hb
          simp only [exec, evalExp]
          rcases hc : construct U toks s.ps nt with n | _ | _ | _
          · obtain ⟨g1, g2, g3, g4⟩ := h1 n hc
            obtain ⟨k1, k2⟩ := setVar_go (w := w) (z := z) g1 g2 hb'
            have hb'cov : endOf toks b'.cov s.ps = trailEnd toks s.ps.pos := by
              unfold setVar at hb'
              split at hb'
              · cases hb'
              · next b'' hd =>
                split at hb'
                · cases hb'
                · split at hb'
                  · cases hb'
                  · cases hb'
                    unfold dropVar at hd
                    split at hd
                    · cases hd; rw [hcov]; rfl
                    · rw [hcov] at hd
                      simp only [isFresh, Bool.false_eq_true, ↓reduceIte] at hd
                      split at hd
                      · cases hd; rfl
                      · cases hd
            refine ⟨_, List.mem_singleton.2 rfl, ⟨k1.wf, k1.mask, k1.vars, k1.nodup, ?_⟩, ?_⟩
            · intro y hy
              cases hy
              exact ⟨n, env_set_same _ _ _, g3⟩
            · have := Step.trans g4 k2
              rw [hb'cov] at this
              exact this
          · trivial
          · exact absurd hc (h2 _)
          · trivial
    · exact hset _ ho
  | push x k e =>
    intro a o ho s h
    simp only [aexec] at ho
    obtain ⟨l, hl, hall⟩ := thenAll_ok ho
    have he := aeval_sound hU (fuel := fuel) hcall h hl
    simp only [exec]
    rcases hr : evalExp ⟨U, toks, fuel, call⟩ s e with ⟨v, s'⟩ | _ | _ | _ <;> rw [hr] at he
    · obtain ⟨p, hp, g1, g2, g3⟩ := he
      obtain ⟨b, hb, hbm⟩ := hall p hp
      obtain ⟨n, c, k1, k2, k3, k4⟩ := apush_sound (w := w) (z := z) hU hz g1 g2 hb
      subst k2
      show ExecOk U w z toks o a s (match s'.env x, Val.node c with
        | .node n, .node c => .ok (.norm, { s' with env := s'.env.set x (.node (n.pushNode k c)) })
        | _, _ => .panic .stuck)
      rw [k1]
      exact ⟨b, hbm, k3, Step.trans g3 k4⟩
    · trivial
    · exact he
    · trivial
  | pushVec x k e =>
    intro a o ho s h
    simp only [aexec] at ho
    obtain ⟨l, hl, hall⟩ := thenAll_ok ho
    have he := aeval_sound hU (fuel := fuel) hcall h hl
    simp only [exec]
    rcases hr : evalExp ⟨U, toks, fuel, call⟩ s e with ⟨v, s'⟩ | _ | _ | _ <;> rw [hr] at he
    · obtain ⟨p, hp, g1, g2, g3⟩ := he
      obtain ⟨b, hb, hbm⟩ := hall p hp
      obtain ⟨n, c, k1, k2, k3, k4⟩ := apushVec_sound (w := w) (z := z) g1 g2 hb
      subst k2
      show ExecOk U w z toks o a s (match s'.env x, Val.vec c with
        | .node n, .vec cs => .ok (.norm, { s' with env := s'.env.set x (.node (n.pushVec k cs)) })
        | _, _ => .panic .stuck)
      rw [k1]
      exact ⟨b, hbm, k3, Step.trans g3 k4⟩
    · trivial
    · exact he
    · trivial
  | append x e =>
    intro a o ho s h
    simp only [aexec] at ho
    obtain ⟨l, hl, hall⟩ := thenAll_ok ho
    have he := aeval_sound hU (fuel := fuel) hcall h hl
    simp only [exec]
    rcases hr : evalExp ⟨U, toks, fuel, call⟩ s e with ⟨v, s'⟩ | _ | _ | _ <;> rw [hr] at he
    · obtain ⟨p, hp, g1, g2, g3⟩ := he
      obtain ⟨b, hb, hbm⟩ := hall p hp
      obtain ⟨n, c, k1, k2, k3, k4⟩ := aappend_sound (w := w) (z := z) g1 g2 hb
      subst k2
      show ExecOk U w z toks o a s (match s'.env x, Val.node c with
        | .vec ns, .node c => .ok (.norm, { s' with env := s'.env.set x (.vec (ns ++ [c])) })
        | _, _ => .panic .stuck)
      rw [k1]
      exact ⟨b, hbm, k3, Step.trans g3 k4⟩
    · trivial
    · exact he
    · trivial
  | setType x nt =>
    intro a o ho s h
    simp only [aexec] at ho
    split at ho
    · cases ho
    · next b hb =>
      cases ho
      obtain ⟨n, k1, k2, k3⟩ := asetType_sound (w := w) (z := z) hU h hb
      simp only [exec, k1]
      exact ⟨b, by simp [AOut.normal], k2, k3⟩
  | ite c d e ihd ihe =>
    intro a o ho s h
    simp only [aexec] at ho
    split at ho
    · cases ho
    · next t f hc =>
      split at ho
      · next t' f' ht hf =>
        split at ho
        · cases ho
        · next o1 h1 =>
          split at ho
          · cases ho
          · next o2 h2 =>
            have hle : OutLe U w z toks _ o := OutLe.merge ho
            have hcond := assume_sound hU (fuel := fuel) (call := call) c a _ hc h
            simp only [exec]
            rcases hr : evalCond ⟨U, toks, fuel, call⟩ s c with (_ | _) | _ | _ | _ <;> rw [hr] at hcond <;> dsimp only
            · obtain ⟨b, hb, g1, g2⟩ := hcond
              obtain ⟨b', hb', g3, g4⟩ := merge_cover (U := U) (w := w) (z := z) (toks := toks) hf b hb s g1
              obtain ⟨o', k1, k2⟩ := runAll_ok (U := U) (w := w) (z := z) (toks := toks) h2 b' hb'
              exact ((ihe b' o' k1 s g3).after (Step.trans (g2.go s) g4)).mono
                (k2.trans ((OutLe.right _ _).trans hle))
            · obtain ⟨b, hb, g1, g2⟩ := hcond
              obtain ⟨b', hb', g3, g4⟩ := merge_cover (U := U) (w := w) (z := z) (toks := toks) ht b hb s g1
              obtain ⟨o', k1, k2⟩ := runAll_ok (U := U) (w := w) (z := z) (toks := toks) h1 b' hb'
              exact ((ihd b' o' k1 s g3).after (Step.trans (g2.go s) g4)).mono
                (k2.trans ((OutLe.left _ _).trans hle))
            · trivial
            · exact hcond
            · trivial
      · cases ho
  | loop c ihc =>
    intro a o ho s h
    simp only [aexec] at ho
    split at ho
    · cases ho
    · next i o' hfix =>
      cases ho
      obtain ⟨h1, h2, h3⟩ := fixLoop_ok (U := U) (w := w) (z := z) (toks := toks) hfix
      simp only [exec]
      refine iterate_sound (i := i) ?_ h2 _ s (h3 a (by simp) s h)
      intro b hb s' hs'
      obtain ⟨o'', k1, k2⟩ := runAll_ok (U := U) (w := w) (z := z) (toks := toks) h1 b hb
      exact (ihc b o'' k1 s' hs').mono k2
  | brk =>
    intro a o ho s h
    cases ho
    exact ⟨a, by simp, h, Step.refl _ _⟩
  | ret e =>
    intro a o ho s h
    simp only [aexec] at ho
    split at ho
    · cases ho
    · next l hl =>
      split at ho
      · cases ho
      · next r hr =>
        cases ho
        have he := aeval_sound hU (fuel := fuel) hcall h hl
        simp only [exec]
        rcases hx : evalExp ⟨U, toks, fuel, call⟩ s e with ⟨v, s'⟩ | _ | _ | _ <;> rw [hx] at he
        · obtain ⟨p, hp, g1, g2, g3⟩ := he
          obtain ⟨q, hq, hpq⟩ := mapR_ok hr p hp
          unfold aret at hpq
          split at hpq
          · next hcov =>
            split at hpq
            · next hfree =>
              cases hpq
              refine ⟨_, hq, g2, g1.wf, g1.mask, ?_⟩
              have hend : endOf toks p.2.cov s'.ps = trailEnd toks s'.ps.pos := by
                rw [← endOf_commit, hcov]; rfl
              have := Step.trans g3 ((free_vars (w := w) (z := z) g1.vars hfree (endOf toks p.2.cov s'.ps)).frameL (own v))
              rw [hend, List.append_nil] at this
              exact this
            · cases hpq
          · cases hpq
        · trivial
        · exact he
        · trivial
  | fail off line =>
    intro a o ho s h
    simp only [aexec] at ho
    split at ho
    · next hoff =>
      cases ho
      simp only [exec]
      rcases offTok_sound (fuel := fuel) (call := call) h hoff with ⟨t, n, hn, ht, h'⟩ | ⟨e, h'⟩
      · rw [h']; trivial
      · rw [h']; trivial
    · cases ho
  | scan x lo hi c ihc =>
    intro a o ho s h
    simp only [aexec] at ho
    split at ho
    · next hhi =>
      split at ho
      · cases ho
      · next i o' hfix =>
        cases ho
        obtain ⟨h1, h2, h3⟩ := fixLoop_ok (U := U) (w := w) (z := z) (toks := toks) hfix
        have hf : ∀ b ∈ i, ∀ s, GS U toks b s → ∀ k, ExecOk U w z toks o' b s
            (exec ⟨U, toks, fuel, call⟩ c ⟨s.ps, s.env.set x (.nat k)⟩) := by
          intro b hb s hs k
          obtain ⟨o'', k1, k2⟩ := runAll_ok (U := U) (w := w) (z := z) (toks := toks) h1 b hb
          split at k1
          · cases k1
          · next b' hb' =>
            obtain ⟨g1, g2⟩ := setVar_go (w := w) (z := z) hs (v := .nat) (y := .nat k) trivial hb'
            exact ((ihc b' o'' k1 _ g1).after g2).mono k2
        have hinit := h3 a (by simp) s h
        cases hi with
        | none =>
          simp only [exec]
          refine scanLoop_sound (oo := ⟨o'.brk ++ _, [], o'.ret⟩) hf h2 ⟨Cover.of_subset fun b hb => List.mem_append_left _ hb,
            Cover.refl _, fun _ h => h⟩ ?_ _ _ s hinit
          intro _ _; trivial
        | some t =>
          simp only [exec]
          simp only [hiOk] at hhi
          split at hhi
          · next b hb =>
            obtain ⟨y, e1, _, e3, _⟩ := aatom_sound (w := w) (z := z) h hb
            rw [e1]
            cases y <;> try exact e3.elim
            dsimp only
            refine scanLoop_sound (oo := ⟨o'.brk ++ _, [], o'.ret⟩) hf h2 ⟨Cover.of_subset fun b hb => List.mem_append_left _ hb,
              Cover.refl _, fun _ h => h⟩ ?_ _ _ s hinit
            rintro s' ⟨b, hb, g1, g2⟩
            exact ⟨b, List.mem_append_right _ hb, g1, g2⟩
          · cases hhi
    · cases ho
  | drain v x c ihc =>
    intro a o ho s h
    simp only [aexec] at ho
    split at ho
    · next as _ _ _ r ht =>
      split at ho
      · cases ho
      · next i o' hfix =>
        split at ho
        · next hbrk hret =>
          cases ho
          obtain ⟨h1, h2, h3⟩ := fixLoop_ok (U := U) (w := w) (z := z) (toks := toks) hfix
          have hg := h.get ht
          have hp := owned_take ht s.env
          simp only [exec]
          cases he : s.env v <;> rw [he] at hg hp <;> try exact hg.elim
          next ns =>
          obtain ⟨u1, u2⟩ := h.update ht (u := .vec [] true false false) (y := .vec [])
            ⟨by simp, by simp, by simp, by simp⟩ (c := a.cov) (by
              intro x' hx'
              refine ⟨hx', ?_⟩
              rintro rfl
              obtain ⟨n', hn', _⟩ := h.fresh _ hx'
              rw [he] at hn'
              cases hn')
          have := drainLoop_sound (f := exec ⟨U, toks, fuel, call⟩ c) (x := x) (i := i) (o := o') (as := as)
            (L0 := owned a.vars s.env) (e0 := endOf toks a.cov s.ps) ?_ h2 hbrk hret ns.reverse
            ⟨s.ps, s.env.set v (.vec [])⟩ (fun n hn => hg.1 n (List.mem_reverse.1 hn)) ?_
          · dsimp only
            rcases hr : drainLoop (exec ⟨U, toks, fuel, call⟩ c) x ns.reverse ⟨s.ps, s.env.set v (.vec [])⟩
              with ⟨_ | _ | _, s'⟩ | _ | _ | _ <;> rw [hr] at this
            · exact this
            · exact this.elim
            · exact this.elim
            · trivial
            · exact this
            · trivial
          · intro b hb s' hs' n hn
            obtain ⟨o'', k1, k2⟩ := runAll_ok (U := U) (w := w) (z := z) (toks := toks) h1 b hb
            split at k1
            · cases k1
            · next b' hb' =>
              obtain ⟨g1, g2⟩ := setVar_go (w := w) (z := z) hs' (v := .node as) (y := .node n) hn hb'
              exact ⟨b', g1, g2, (ihc b' o'' k1 _ g1).mono k2⟩
          · obtain ⟨b, hb, g1, g2⟩ := h3 _ (List.mem_singleton.2 rfl) _ u1
            refine ⟨b, hb, g1, ?_⟩
            refine (Step.perm (l' := ns.reverse ++ owned (replaceVar v (.vec [] true false false) a.vars)
              (s.env.set v (.vec []))) ?_ _).trans (g2.frameL _)
            refine hp.trans ?_
            exact (ns.reverse_perm.symm).append u2.symm
        · cases ho
    · cases ho
  | tryElse x f args hd ihh =>
    intro a o ho s h
    simp only [aexec] at ho
    split at ho
    · cases ho
    · next v b hb =>
      split at ho
      · cases ho
      · next b' hb' =>
        split at ho
        · cases ho
        · next o' ho' =>
          have hle : OutLe U w z toks _ o := OutLe.merge ho
          obtain ⟨vs, e1, e2⟩ := acall_sound hcall h hb
          simp only [exec, e1]
          show ExecOk U w z toks o a s (match call f vs s.ps with
            | .ok (v, ps) => .ok (.norm, { ps := ps, env := s.env.set x v })
            | .err _ => exec ⟨U, toks, fuel, call⟩ hd s
            | .panic p => .panic p
            | .timeout => .timeout)
          rcases hc : call f vs s.ps with ⟨y, ps⟩ | _ | _ | _ <;> rw [hc] at e2 <;> dsimp only
          · obtain ⟨g1, g2, g3⟩ := e2
            obtain ⟨k1, k2⟩ := setVar_go (w := w) (z := z) g1 g2 hb'
            have : ExecOk U w z toks (.normal [b']) a s (.ok (.norm, ⟨ps, s.env.set x y⟩)) :=
              ⟨b', by simp [AOut.normal], k1, Step.trans g3 k2⟩
            exact this.mono ((OutLe.left _ _).trans hle)
          · exact (ihh a o' ho' s h).mono ((OutLe.right _ _).trans hle)
          · exact e2
          · trivial

end Verif.AI
