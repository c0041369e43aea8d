import Verif.Proofs.SoundCond
/-! Soundness of the analysis of right-hand sides and calls. -/
namespace Verif.AI
open Core Spec Interp

variable {U : Unicode} {toks : List Token} {w : Token → Nat} {z : Bool}

/-- The nodes a list of values owns. -/
def owns (vs : List Val) : List Node := vs.flatMap own

theorem owns_cons (v : Val) (vs : List Val) : owns (v :: vs) = own v ++ owns vs := by simp [owns]

theorem owns_not {v : AVal} {x : Val} (h : Γ U toks v x) (hv : v.owns = false) : own x = [] := by
  cases v <;> simp [AVal.owns] at hv <;> cases x <;> first | exact h.elim | rfl

theorem GS.commit {a : AState} {s : St} (h : GS U toks a s) {c : Cov} (hc : ∀ x, c ≠ .fresh x)
    {vars : List (Var × AVal)} (hv : ∀ p ∈ vars, Γ U toks p.2 (s.env p.1))
    (hn : (vars.map Prod.fst).Nodup) : GS U toks ⟨c, a.t0, a.t1, vars⟩ s :=
  ⟨h.wf, h.mask, hv, hn, fun x hx => absurd hx (hc x)⟩

theorem commit_ne (c : Cov) : ∀ x, commit c ≠ .fresh x := by
  intro x
  cases c <;> simp [commit]

theorem readVar_sound {a b : AState} {s : St} {x : Var} {v : AVal} (h : GS U toks a s)
    (hr : readVar x a = .ok (v, b)) :
    GS U toks b s ∧ Γ U toks v (s.env x) ∧ GoV w z toks a s (own (s.env x)) b s := by
  unfold readVar at hr
  split at hr
  · cases hr
  · next v' r ht =>
    have hv := h.get ht
    have hp := owned_take ht s.env
    split at hr
    · cases hr
      refine ⟨h.commit (commit_ne _) (fun p hp => h.vars p (take_sub ht p hp)) (take_nodup ht h.nodup).1,
        hv, ?_⟩
      unfold GoV
      dsimp only
      rw [endOf_commit]
      exact Step.perm hp _
    · next ho =>
      cases hr
      refine ⟨h, hv, ?_⟩
      unfold GoV
      rw [owns_not hv (by simpa using ho)]
      exact Step.refl _ _

theorem aatom_sound {a b : AState} {s : St} {t : Atom} {v : AVal} (h : GS U toks a s)
    (hr : aatom t a = .ok (v, b)) :
    ∃ x, evalAtom s.env t = .ok x ∧ GS U toks b s ∧ Γ U toks v x ∧ GoV w z toks a s (own x) b s := by
  cases t with
  | var x => exact ⟨_, rfl, readVar_sound h hr⟩
  | bool c =>
    cases hr
    exact ⟨_, rfl, h, .inr rfl, Step.refl _ _⟩
  | nat n =>
    cases hr
    exact ⟨_, rfl, h, trivial, Step.refl _ _⟩
  | kws ks =>
    cases hr
    exact ⟨_, rfl, h, trivial, Step.refl _ _⟩
  | notVar x =>
    simp only [aatom] at hr
    split at hr
    · next c hx =>
      cases hr
      obtain ⟨_, hx⟩ := get_take hx
      have hv := h.get hx
      cases he : s.env x <;> rw [he] at hv <;> try exact hv.elim
      next d =>
      refine ⟨.bool (!d), by simp only [evalAtom, he], h, ?_, Step.refl _ _⟩
      rcases hv with rfl | rfl
      · exact .inl rfl
      · exact .inr rfl
    · cases hr
  | strEq x k =>
    simp only [aatom] at hr
    split at hr
    · next hx =>
      cases hr
      obtain ⟨_, hx⟩ := get_take hx
      have hv := h.get hx
      cases he : s.env x <;> rw [he] at hv <;> try exact hv.elim
      next d => exact ⟨.bool (d == k.lit), by simp only [evalAtom, he], h, .inl rfl, Step.refl _ _⟩
    · cases hr

theorem aatoms_sound {ts : List Atom} {a b : AState} {s : St} {vs : List AVal} (h : GS U toks a s)
    (hr : aatoms ts a = .ok (vs, b)) :
    ∃ xs, evalAtoms s.env ts = .ok xs ∧ GS U toks b s ∧ List.Forall₂ (Γ U toks) vs xs ∧
      GoV w z toks a s (owns xs) b s := by
  induction ts generalizing a vs with
  | nil =>
    cases hr
    exact ⟨[], rfl, h, .nil, Step.refl _ _⟩
  | cons t ts ih =>
    simp only [aatoms] at hr
    split at hr
    · cases hr
    · next v a' ha =>
      split at hr
      · cases hr
      · next vs' b' hb =>
        cases hr
        obtain ⟨x, h1, h2, h3, h4⟩ := aatom_sound (w := w) (z := z) h ha
        obtain ⟨xs, g1, g2, g3, g4⟩ := ih h2 hb
        refine ⟨x :: xs, ?_, g2, .cons h3 g3, ?_⟩
        · simp only [evalAtoms, h1, g1]; rfl
        · unfold GoV
          rw [owns_cons, List.append_assoc]
          exact h4.trans (g4.frameL _)

/-! ### Calls -/

/-- The tokens before this index have been accounted for when a function starts. -/
def startOf (toks : List Token) (e : Entry) (ps : PS) : Nat :=
  if e.used then trailEnd toks ps.pos else leadStart toks ps.pos

/-- The outcome of a call fits an entry of the table. -/
def CallOk (U : Unicode) (w : Token → Nat) (z : Bool) (toks : List Token) (e : Entry) (vs : List Val)
    (ps : PS) : Out (Val × PS) → Prop
  | .ok (v, ps') => ps'.WF toks ∧ Γ U toks e.res v ∧ MaskOk U toks e.p0 e.p1 ps' ∧
      Step w z toks (owns vs) (startOf toks e ps) (own v) (trailEnd toks ps'.pos)
  | .err _ => True
  | .panic p => p = .emptyLiteral
  | .timeout => True

/-- All entries of the table are right about `call`. -/
def CallSpec (U : Unicode) (w : Token → Nat) (z : Bool) (toks : List Token) (T : Fn → List Entry)
    (call : Fn → List Val → PS → Out (Val × PS)) : Prop :=
  ∀ f, ∀ e ∈ T f, ∀ vs ps, List.Forall₂ (Γ U toks) e.args vs → ps.WF toks →
    MaskOk U toks e.t0 e.t1 ps → CallOk U w z toks e vs ps (call f vs ps)

theorem argsLe_sound {as bs : List AVal} {vs : List Val} (hle : argsLe as bs = true)
    (h : List.Forall₂ (Γ U toks) as vs) : List.Forall₂ (Γ U toks) bs vs := by
  induction h generalizing bs with
  | nil => cases bs with
    | nil => exact .nil
    | cons => simp [argsLe] at hle
  | cons h1 _ ih => cases bs with
    | nil => simp [argsLe] at hle
    | cons b bs =>
      simp only [argsLe, Bool.and_eq_true] at hle
      exact .cons (h1.mono hle.1) (ih hle.2)

/-- The outcome of a right-hand side fits. -/
def ExpOk (U : Unicode) (w : Token → Nat) (z : Bool) (toks : List Token) (l : List (AVal × AState))
    (a : AState) (s : St) : Out (Val × St) → Prop
  | .ok (v, s') => ∃ p ∈ l, GS U toks p.2 s' ∧ Γ U toks p.1 v ∧ GoV w z toks a s (own v) p.2 s'
  | .err _ => True
  | .panic p => p = .emptyLiteral
  | .timeout => True

theorem acall_sound {T : Fn → List Entry} {call : Fn → List Val → PS → Out (Val × PS)}
    (hcall : CallSpec U w z toks T call) {a : AState} {s : St} {f : Fn} {args : List Atom}
    {r : AVal × AState} (h : GS U toks a s) (hr : acall T f args a = .ok r) :
    ∃ vs, evalAtoms s.env args = .ok vs ∧
      match call f vs s.ps with
      | .ok (v, ps) => GS U toks r.2 ⟨ps, s.env⟩ ∧ Γ U toks r.1 v ∧ GoV w z toks a s (own v) r.2 ⟨ps, s.env⟩
      | .err _ => True
      | .panic p => p = .emptyLiteral
      | .timeout => True := by
  unfold acall at hr
  split at hr
  · cases hr
  · next vs b hb =>
    split at hr
    · cases hr
    · next b' hb' =>
      split at hr
      · next e he =>
        cases hr
        obtain ⟨xs, h1, h2, h3, h4⟩ := aatoms_sound (w := w) (z := z) h hb
        obtain ⟨g1, g2, g3⟩ := dropFresh_sound (w := w) (z := z) h2 hb'
        have hmem := List.mem_of_find?_eq_some he
        have hp := List.find?_some he
        simp only [Bool.and_eq_true, bne_iff_ne, ne_eq] at hp
        obtain ⟨⟨⟨p1, p2⟩, p3⟩, p4⟩ := hp
        have hc := hcall f e hmem xs s.ps (argsLe_sound p2 h3) g1.wf (g1.mask.mono p3 p4)
        refine ⟨xs, h1, ?_⟩
        have hst : startOf toks e s.ps = endOf toks b'.cov s.ps := by
          unfold startOf endOf
          cases hu : e.used <;> cases hc : isUnc b'.cov <;> simp_all
        rcases hx : call f xs s.ps with ⟨v, ps⟩ | _ | _ | _ <;> rw [hx] at hc
        · obtain ⟨c1, c2, c3, c4⟩ := hc
          refine ⟨⟨c1, c3, g1.vars, g1.nodup, fun x hx => by cases hx⟩, c2, ?_⟩
          rw [hst] at c4
          unfold GoV
          rw [endOf_cov]
          exact (h4.trans (g2.frameL _)).trans (c4.frame _)
        · trivial
        · exact hc
        · trivial
      · cases hr

theorem aconstruct_sound {a b : AState} {s : St} {nt : NodeType} {v : AVal} (h : GS U toks a s)
    (hr : aconstruct nt a = .ok (v, b)) :
    b.cov = .cov ∧ (∀ n, construct U toks s.ps nt = .ok n → GS U toks b s ∧ Γ U toks v (.node n) ∧
      Fresh U toks s.ps n ∧ GoV w z toks a s [n] b s) ∧
    (∀ p, construct U toks s.ps nt ≠ .panic p) := by
  unfold aconstruct at hr
  split at hr
  · cases hr
  · next a' ha =>
    split at hr
    · next ht =>
      cases hr
      simp only [Bool.and_eq_true, Bool.not_eq_true'] at ht
      have hast : nt ≠ .Asterisk := by
        intro h'
        rw [tyEq_iff.2 h'] at ht
        cases ht.2
      obtain ⟨h1, h2, h3⟩ := needUnc_sound (w := w) (z := z) h ha
      have hc := construct_sound h1.wf ht.1 hast h1.mask
      refine ⟨rfl, ?_, ?_⟩
      · intro n hn
        rw [hn] at hc
        obtain ⟨c1, c2⟩ := hc
        refine ⟨⟨h1.wf, h1.mask, h1.vars, h1.nodup, fun x hx => by cases hx⟩, c1, c2, ?_⟩
        refine Step.trans h2 ?_
        rw [h3, endOf_unc]
        dsimp only
        rw [endOf_cov]
        have hz : Step w z toks [] (leadStart toks s.ps.pos) [n] (trailEnd toks s.ps.pos) := by
          refine ⟨0, ?_, ?_⟩
          · have := c2.weight w
            rw [Wt_nil]; omega
          · rintro (h | h)
            · exact absurd rfl h
            · exact absurd h DL_nil
        exact hz.frame _
      · intro p hp
        rw [hp] at hc
        exact hc
    · cases hr

theorem dropLast_perm {α : Type} {l : List α} {x : α} (h : l.getLast? = some x) :
    l.Perm (x :: l.dropLast) := by
  obtain ⟨ys, rfl⟩ := List.getLast?_eq_some_iff.1 h
  simp only [List.dropLast_concat]
  exact List.perm_append_comm

theorem env_set_same (env : Env) (x : Var) (v : Val) : env.set x v x = v := by simp [Env.set]

theorem env_set_ne (env : Env) {x y : Var} (v : Val) (h : y ≠ x) : env.set x v y = env y := by
  simp [Env.set, h]

/-- Replacing the value of a live variable. -/
theorem GS.update {a : AState} {s : St} (h : GS U toks a s) {x : Var} {v u : AVal} {y : Val}
    {r : List (Var × AVal)} (ht : take x a.vars = some (v, r)) (hu : Γ U toks u y) {c : Cov}
    (hc : ∀ x', c = .fresh x' → a.cov = .fresh x' ∧ (x' = x → ∃ n, y = .node n ∧ Fresh U toks s.ps n)) :
    GS U toks ⟨c, a.t0, a.t1, replaceVar x u a.vars⟩ ⟨s.ps, s.env.set x y⟩ ∧
      (owned (replaceVar x u a.vars) (s.env.set x y)).Perm (own y ++ owned r s.env) := by
  obtain ⟨l1, l2, h1, h2, h3⟩ := take_some ht
  have hr : replaceVar x u a.vars = l1 ++ (x, u) :: l2 := by rw [h1, replaceVar_eq h3]
  have hn : (replaceVar x u a.vars).map Prod.fst = a.vars.map Prod.fst := by rw [hr, h1]; simp
  have hnx := (take_nodup ht h.nodup).2
  have hx1 : x ∉ l1.map Prod.fst := h3
  have hx2 : x ∉ l2.map Prod.fst := by
    rw [h2] at hnx
    simp only [List.map_append, List.mem_append, not_or] at hnx
    exact hnx.2
  refine ⟨⟨h.wf, h.mask, ?_, ?_, ?_⟩, ?_⟩
  · intro p hp
    rw [hr] at hp
    rcases List.mem_append.1 hp with hp | hp
    · have hne : p.1 ≠ x := fun h => hx1 (h ▸ List.mem_map_of_mem hp)
      dsimp only
      rw [env_set_ne _ _ hne]
      exact h.vars p (by rw [h1]; simp [hp])
    · rcases List.mem_cons.1 hp with rfl | hp
      · dsimp only; rw [env_set_same]; exact hu
      · have hne : p.1 ≠ x := fun h => hx2 (h ▸ List.mem_map_of_mem hp)
        dsimp only
        rw [env_set_ne _ _ hne]
        exact h.vars p (by rw [h1]; simp [hp])
  · rw [hn]; exact h.nodup
  · intro x' hx'
    obtain ⟨hf, he⟩ := hc x' hx'
    by_cases hxx : x' = x
    · obtain ⟨n, hy, hfr⟩ := he hxx
      exact ⟨n, by rw [hxx]; exact (env_set_same _ _ _).trans hy, hfr⟩
    · obtain ⟨n, hn, hfr⟩ := h.fresh x' hf
      exact ⟨n, (env_set_ne _ _ hxx).trans hn, hfr⟩
  · rw [hr, h2, owned_append, owned_cons, owned_append, owned_set hx1, owned_set hx2]
    simp only [env_set_same]
    rw [← List.append_assoc, ← List.append_assoc]
    exact List.Perm.append_right _ List.perm_append_comm

theorem aeval_sound (hU : U.Lawful) {T : Fn → List Entry} {fuel : Nat}
    {call : Fn → List Val → PS → Out (Val × PS)} (hcall : CallSpec U w z toks T call) {e : Exp}
    {a : AState} {s : St} {l : List (AVal × AState)} (h : GS U toks a s) (hr : aeval T e a = .ok l) :
    ExpOk U w z toks l a s (evalExp ⟨U, toks, fuel, call⟩ s e) := by
  cases e with
  | var x =>
    simp only [aeval] at hr
    split at hr
    · cases hr
    · next r hx =>
      cases hr
      obtain ⟨h1, h2, h3⟩ := readVar_sound (w := w) (z := z) h hx
      exact ⟨_, List.mem_singleton.2 rfl, h1, h2, h3⟩
  | construct nt =>
    simp only [aeval] at hr
    split at hr
    · cases hr
    · next r hx =>
      cases hr
      obtain ⟨_, h1, h2⟩ := aconstruct_sound (w := w) (z := z) h hx
      simp only [evalExp]
      rcases hc : construct U toks s.ps nt with n | _ | _ | _
      · obtain ⟨g1, g2, g3, g4⟩ := h1 n hc
        exact ⟨_, List.mem_singleton.2 rfl, g1, g2, g4⟩
      · trivial
      · exact absurd hc (h2 _)
      · trivial
  | empty nt =>
    simp only [aeval] at hr
    split at hr
    · next ht =>
      cases hr
      simp only [Bool.and_eq_true, Bool.not_eq_true'] at ht
      have hast : nt ≠ .Asterisk := by
        intro h'
        rw [tyEq_iff.2 h'] at ht
        cases ht.2
      refine ⟨_, List.mem_singleton.2 rfl, h, empty_is ht.1 hast, ?_⟩
      have hz : Step w z toks [] (endOf toks a.cov s.ps) [Node.empty nt] (endOf toks a.cov s.ps) := by
        have := free_own (U := U) (toks := toks) (w := w) (z := z) (v := .node [⟨nt, 0, 0, 0, bit NOTOK⟩])
          (x := .node (Node.empty nt)) (empty_is ht.1 hast) 
          (by show ((Mask.le (bit NOTOK) (bit NOTOK) && Nat.beq 0 0 && Nat.beq 0 0) && true) = true; decide +kernel)
        refine ⟨0, ?_, ?_⟩
        · have h1 : Wt w [Node.empty nt] = 0 := this.1
          rw [Wt_nil, h1]
        · rintro (h | h)
          · exact absurd rfl h
          · exact absurd h DL_nil
      exact hz.frame _
    · cases hr
  | call f args =>
    simp only [aeval] at hr
    split at hr
    · cases hr
    · next r hx =>
      cases hr
      obtain ⟨vs, h1, h2⟩ := acall_sound hcall h hx
      simp only [evalExp, h1]
      show ExpOk U w z toks _ a s (call f vs s.ps >>= fun p => .ok (p.1, { s with ps := p.2 }))
      rcases hc : call f vs s.ps with ⟨v, ps⟩ | _ | _ | _ <;> rw [hc] at h2
      · exact ⟨_, List.mem_singleton.2 rfl, h2⟩
      · trivial
      · exact h2
      · trivial
  | nilVec =>
    cases hr
    refine ⟨_, List.mem_singleton.2 rfl, h, ⟨by simp, by simp, by simp, by simp⟩, Step.refl _ _⟩
  | pop x =>
    simp only [aeval] at hr
    split at hr
    · next as o m hx =>
      cases hr
      obtain ⟨r, hx⟩ := get_take hx
      have hv := h.get hx
      have hp := owned_take hx s.env
      simp only [evalExp]
      cases he : s.env x <;> rw [he] at hv hp <;> try exact hv.elim
      next ns =>
      obtain ⟨h1, h2, h3, h4⟩ := hv
      dsimp only
      rcases hl : ns.getLast? with _ | n
      · rw [List.getLast?_eq_none_iff] at hl
        rw [hl] at h2
        exact absurd (h2 rfl) (by simp)
      · dsimp only
        have hperm := dropLast_perm hl
        have hlen : ns.length = ns.dropLast.length + 1 := by rw [hperm.length_eq]; rfl
        have hu : Γ U toks (.vec as o m m) (.vec ns.dropLast) :=
          ⟨fun n hn => h1 n (List.dropLast_subset _ hn), fun h => h3 (by omega),
            fun h => h4 (by omega), fun h => h4 (by omega)⟩
        obtain ⟨g1, g2⟩ := h.update hx hu (c := a.cov) (by
          intro x' hx'
          refine ⟨hx', ?_⟩
          rintro rfl
          obtain ⟨n', hn', _⟩ := h.fresh _ hx'
          rw [he] at hn'
          cases hn')
        refine ⟨_, List.mem_singleton.2 rfl, g1, h1 n (List.mem_of_getLast? hl), ?_⟩
        refine Step.perm ?_ _
        refine hp.trans ?_
        refine List.Perm.trans ?_ (g2.symm.append_left [n])
        show (ns ++ owned r s.env).Perm (n :: (ns.dropLast ++ owned r s.env))
        exact hperm.append_right _
    · cases hr
  | prec o =>
    simp only [aeval] at hr
    split at hr
    · next ho =>
      cases hr
      obtain ⟨n, hn⟩ := evalOff_sound h ho
      simp only [evalExp, hn]
      show ExpOk U w z toks _ a s (getPrecedence U toks s.ps n >>= fun p => .ok (.nat p, s))
      rcases getPrecedence_nopanic (U := U) s.ps n h.wf.inp with ⟨t, ht⟩ | ⟨e, he⟩
      · rw [ht]
        exact ⟨_, List.mem_singleton.2 rfl, h, trivial, Step.refl _ _⟩
      · rw [he]; trivial
    · cases hr
  | natLit n =>
    cases hr
    exact ⟨_, List.mem_singleton.2 rfl, h, trivial, Step.refl _ _⟩
  | boolLit b =>
    cases hr
    exact ⟨_, List.mem_singleton.2 rfl, h, .inr rfl, Step.refl _ _⟩
  | kws ks =>
    cases hr
    exact ⟨_, List.mem_singleton.2 rfl, h, trivial, Step.refl _ _⟩
  | upperLit o =>
    simp only [aeval] at hr
    split at hr
    · next ho =>
      cases hr
      rcases offTok_sound (fuel := fuel) (call := call) h ho with ⟨t, n, hn, ht, h'⟩ | ⟨e, h'⟩
      · simp only [evalExp, h']
        exact ⟨_, List.mem_singleton.2 rfl, h, trivial, Step.refl _ _⟩
      · simp only [evalExp, h']; trivial
    · cases hr
  | cond c =>
    simp only [aeval] at hr
    split at hr
    · cases hr
    · next t f hx =>
      cases hr
      have := assume_sound hU (fuel := fuel) (call := call) c a _ hx h
      simp only [evalExp]
      rcases hc : evalCond ⟨U, toks, fuel, call⟩ s c with (_ | _) | _ | _ | _ <;> rw [hc] at this
      · obtain ⟨b, hb, g, e⟩ := this
        exact ⟨(.bool (some false), b), List.mem_append_right _ (List.mem_map_of_mem hb), g, .inr rfl, e.go s⟩
      · obtain ⟨b, hb, g, e⟩ := this
        exact ⟨(.bool (some true), b), List.mem_append_left _ (List.mem_map_of_mem hb), g, .inr rfl, e.go s⟩
      · trivial
      · exact this
      · trivial

end Verif.AI
