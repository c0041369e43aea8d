import Verif.Proofs.Ops2
/-! Soundness of the operations on abstract states. -/
namespace Verif.AI
open Core Spec Interp

variable {U : Unicode} {toks : List Token} {w : Token → Nat} {z : Bool}

/-! ### Variables -/

theorem take_some {x : Var} {vars : List (Var × AVal)} {v : AVal} {r : List (Var × AVal)}
    (h : take x vars = some (v, r)) : ∃ l1 l2, vars = l1 ++ (x, v) :: l2 ∧ r = l1 ++ l2 ∧
      x ∉ l1.map Prod.fst := by
  induction vars generalizing r with
  | nil => simp [take] at h
  | cons p vars ih =>
    obtain ⟨y, u⟩ := p
    simp only [take] at h
    split at h
    · next hb =>
      have := Nat.eq_of_beq_eq_true hb
      subst this
      cases h
      exact ⟨[], vars, rfl, rfl, by simp⟩
    · next hb =>
      split at h
      · next u' r' ht =>
        simp only [Option.some.injEq, Prod.mk.injEq] at h
        obtain ⟨rfl, rfl⟩ := h
        obtain ⟨l1, l2, rfl, rfl, h3⟩ := ih ht
        refine ⟨(y, u) :: l1, l2, rfl, rfl, ?_⟩
        simp only [List.map_cons, List.mem_cons, not_or]
        refine ⟨?_, h3⟩
        rintro rfl
        exact hb (Nat.beq_refl _)
      · cases h

theorem take_none {x : Var} {vars : List (Var × AVal)} (h : take x vars = none) :
    x ∉ vars.map Prod.fst := by
  induction vars with
  | nil => simp
  | cons p vars ih =>
    obtain ⟨y, u⟩ := p
    simp only [take] at h
    split at h
    · cases h
    · next hb =>
      split at h
      · cases h
      · next ht =>
        simp only [List.map_cons, List.mem_cons, not_or]
        refine ⟨?_, ih ht⟩
        rintro rfl
        exact hb (Nat.beq_refl _)

theorem insertVar_perm (x : Var) (v : AVal) (vars : List (Var × AVal)) :
    (insertVar x v vars).Perm ((x, v) :: vars) := by
  induction vars with
  | nil => exact .refl _
  | cons p vars ih =>
    obtain ⟨y, u⟩ := p
    simp only [insertVar]
    split
    · exact .refl _
    · exact ((List.Perm.cons _ ih).trans (List.Perm.swap _ _ _))

theorem replaceVar_eq {x : Var} {u v : AVal} {l1 l2 : List (Var × AVal)} (h : x ∉ l1.map Prod.fst) :
    replaceVar x u (l1 ++ (x, v) :: l2) = l1 ++ (x, u) :: l2 := by
  induction l1 with
  | nil => simp [replaceVar, Nat.beq_refl]
  | cons p l1 ih =>
    obtain ⟨y, u'⟩ := p
    simp only [List.map_cons, List.mem_cons, not_or] at h
    have hb : Nat.beq x y = false := by
      rw [← Bool.not_eq_true]
      intro hb
      exact h.1 (Nat.eq_of_beq_eq_true hb)
    simp [replaceVar, hb, ih h.2]

theorem owned_append (l l' : List (Var × AVal)) (env : Env) :
    owned (l ++ l') env = owned l env ++ owned l' env := by simp [owned]

theorem owned_cons (p : Var × AVal) (l : List (Var × AVal)) (env : Env) :
    owned (p :: l) env = own (env p.1) ++ owned l env := by simp [owned]

theorem owned_names {l l' : List (Var × AVal)} (h : l.map Prod.fst = l'.map Prod.fst) (env : Env) :
    owned l env = owned l' env := by
  unfold owned
  have : ∀ l : List (Var × AVal), l.flatMap (fun p => own (env p.1)) =
      (l.map Prod.fst).flatMap fun x => own (env x) := by
    intro l; rw [List.flatMap_map]
  rw [this, this, h]

theorem owned_perm {l l' : List (Var × AVal)} (h : l.Perm l') (env : Env) :
    (owned l env).Perm (owned l' env) := h.flatMap_right _

theorem owned_set {l : List (Var × AVal)} {env : Env} {x : Var} {v : Val} (h : x ∉ l.map Prod.fst) :
    owned l (env.set x v) = owned l env := by
  unfold owned
  induction l with
  | nil => rfl
  | cons p l ih =>
    simp only [List.map_cons, List.mem_cons, not_or] at h
    rw [List.flatMap_cons, List.flatMap_cons, ih h.2]
    unfold Env.set
    rw [if_neg (Ne.symm h.1)]

theorem owned_take {x : Var} {vars : List (Var × AVal)} {v : AVal} {r : List (Var × AVal)}
    (h : take x vars = some (v, r)) (env : Env) :
    (owned vars env).Perm (own (env x) ++ owned r env) := by
  obtain ⟨l1, l2, rfl, rfl, _⟩ := take_some h
  rw [owned_append, owned_cons, owned_append, ← List.append_assoc, ← List.append_assoc]
  exact List.Perm.append_right _ List.perm_append_comm

/-! ### Transitions between states -/

/-- From one state to another. -/
abbrev Go (w : Token → Nat) (z : Bool) (toks : List Token) (a : AState) (s : St) (a' : AState)
    (s' : St) : Prop :=
  Step w z toks (owned a.vars s.env) (endOf toks a.cov s.ps) (owned a'.vars s'.env)
    (endOf toks a'.cov s'.ps)

/-- From one state to another, with a value produced. -/
abbrev GoV (w : Token → Nat) (z : Bool) (toks : List Token) (a : AState) (s : St) (v : List Node)
    (a' : AState) (s' : St) : Prop :=
  Step w z toks (owned a.vars s.env) (endOf toks a.cov s.ps) (v ++ owned a'.vars s'.env)
    (endOf toks a'.cov s'.ps)

/-- The same variables and coverage. -/
structure Same (a b : AState) : Prop where
  cov : b.cov = a.cov
  names : b.vars.map Prod.fst = a.vars.map Prod.fst

theorem Same.rfl' (a : AState) : Same a a := ⟨rfl, rfl⟩

theorem Same.trans {a b c : AState} (h : Same a b) (h' : Same b c) : Same a c :=
  ⟨h'.cov.trans h.cov, h'.names.trans h.names⟩

theorem Same.go {a b : AState} (h : Same a b) (s : St) : Go w z toks a s b s := by
  unfold Go
  rw [owned_names h.names, h.cov]
  exact Step.refl _ _

theorem endOf_fresh (x : Var) (ps : PS) : endOf toks (.fresh x) ps = trailEnd toks ps.pos := rfl
theorem endOf_cov (ps : PS) : endOf toks .cov ps = trailEnd toks ps.pos := rfl
theorem endOf_unc (ps : PS) : endOf toks .unc ps = leadStart toks ps.pos := rfl

theorem endOf_commit (c : Cov) (ps : PS) : endOf toks (commit c) ps = endOf toks c ps := by
  cases c <;> rfl

theorem GS.replace {a : AState} {s : St} (h : GS U toks a s) {x : Var} {v u : AVal}
    {r : List (Var × AVal)} (ht : take x a.vars = some (v, r)) (hu : Γ U toks u (s.env x)) :
    GS U toks ⟨a.cov, a.t0, a.t1, replaceVar x u a.vars⟩ s ∧
      Same a ⟨a.cov, a.t0, a.t1, replaceVar x u a.vars⟩ := by
  obtain ⟨l1, l2, h1, h2, h3⟩ := take_some ht
  have hr : replaceVar x u a.vars = l1 ++ (x, u) :: l2 := by rw [h1, replaceVar_eq h3]
  have hn : (replaceVar x u a.vars).map Prod.fst = a.vars.map Prod.fst := by rw [hr, h1]; simp
  refine ⟨⟨h.wf, h.mask, ?_, ?_, h.fresh⟩, ⟨rfl, hn⟩⟩
  · intro p hp
    rw [hr] at hp
    rcases List.mem_append.1 hp with hp | hp
    · exact h.vars p (by rw [h1]; simp [hp])
    · rcases List.mem_cons.1 hp with rfl | hp
      · exact hu
      · exact h.vars p (by rw [h1]; simp [hp])
  · rw [hn]; exact h.nodup

theorem GS.get {a : AState} {s : St} (h : GS U toks a s) {x : Var} {v : AVal} {r : List (Var × AVal)}
    (ht : take x a.vars = some (v, r)) : Γ U toks v (s.env x) := by
  obtain ⟨l1, l2, h1, h2, h3⟩ := take_some ht
  exact h.vars (x, v) (by rw [h1]; simp)

theorem get_take {a : AState} {x : Var} {v : AVal} (h : AI.get a x = .ok v) :
    ∃ r, take x a.vars = some (v, r) := by
  unfold AI.get at h
  split at h
  · next v' r ht => cases h; exact ⟨r, ht⟩
  · cases h

theorem take_nodup {x : Var} {vars : List (Var × AVal)} {v : AVal} {r : List (Var × AVal)}
    (h : take x vars = some (v, r)) (hn : (vars.map Prod.fst).Nodup) :
    (r.map Prod.fst).Nodup ∧ x ∉ r.map Prod.fst := by
  obtain ⟨l1, l2, rfl, rfl, h3⟩ := take_some h
  have hp : ((l1 ++ (x, v) :: l2).map Prod.fst).Perm (x :: (l1 ++ l2).map Prod.fst) := by
    simp only [List.map_append, List.map_cons]
    exact List.perm_middle
  have := hp.nodup_iff.1 hn
  rw [List.nodup_cons] at this
  exact ⟨this.2, this.1⟩

theorem take_sub {x : Var} {vars : List (Var × AVal)} {v : AVal} {r : List (Var × AVal)}
    (h : take x vars = some (v, r)) : ∀ p ∈ r, p ∈ vars := by
  obtain ⟨l1, l2, rfl, rfl, h3⟩ := take_some h
  intro p hp
  rcases List.mem_append.1 hp with hp | hp <;> simp [hp]

theorem isFresh_iff {c : Cov} {x : Var} : isFresh c x = true ↔ c = .fresh x := by
  unfold isFresh
  split
  · next y =>
    constructor
    · intro h; rw [Nat.eq_of_beq_eq_true h]
    · intro h; cases h; exact Nat.beq_refl _
  · next h =>
    constructor
    · intro h'; cases h'
    · intro h'; exact absurd h' (h x)

theorem dropVar_sound {a b : AState} {s : St} (h : GS U toks a s) {x : Var} (hd : dropVar x a = .ok b) :
    GS U toks b s ∧ Go w z toks a s b s := by
  unfold dropVar at hd
  split at hd
  · cases hd; exact ⟨h, Step.refl _ _⟩
  · next v r ht =>
    have hv := h.get ht
    have hnd := take_nodup ht h.nodup
    have hperm := owned_take ht s.env
    split at hd
    · next hf =>
      have hf := isFresh_iff.1 hf
      split at hd
      · next as =>
        split at hd
        · cases hd
        · next hdm =>
          cases hd
          obtain ⟨n, hn, hfr⟩ := h.fresh x hf
          rw [hn] at hv hperm
          refine ⟨⟨h.wf, h.mask, fun p hp => h.vars p (take_sub ht p hp), hnd.1,
            fun y hy => by cases hy⟩, ?_⟩
          unfold Go
          rw [hf, endOf_fresh, endOf_unc]
          have hs := fresh_step (w := w) (z := z) hv hfr (by simpa using hdm)
          exact (Step.perm hperm _).trans (hs.frame _)
      · cases hd
    · next hf =>
      split at hd
      · next hfree =>
        cases hd
        refine ⟨⟨h.wf, h.mask, fun p hp => h.vars p (take_sub ht p hp), hnd.1, h.fresh⟩, ?_⟩
        exact (Step.perm hperm _).trans ((free_step hv hfree _).frame _)
      · cases hd

theorem setVar_sound {a b : AState} {s : St} (h : GS U toks a s) {x : Var} {v : AVal} {y : Val}
    (hv : Γ U toks v y) (hd : setVar x v a = .ok b) :
    GS U toks b ⟨s.ps, s.env.set x y⟩ ∧ GoV w z toks a s [] a s ∧
      Step w z toks (own y ++ owned a.vars s.env) (endOf toks a.cov s.ps)
        (owned b.vars (s.env.set x y)) (endOf toks b.cov s.ps) := by
  unfold setVar at hd
  split at hd
  · cases hd
  · next a' ha' =>
    obtain ⟨h1, h2⟩ := dropVar_sound (w := w) (z := z) h ha'
    split at hd
    · cases hd
    · next ht =>
      have hx := take_none ht
      split at hd
      · cases hd
      · next hfr =>
        cases hd
        have hp := insertVar_perm x v a'.vars
        refine ⟨⟨h1.wf, h1.mask, ?_, ?_, ?_⟩, Step.refl _ _, ?_⟩
        · intro p hpm
          rcases List.mem_cons.1 (hp.mem_iff.1 hpm) with rfl | hpm
          · simpa [Env.set] using hv
          · have hne : p.1 ≠ x := fun h => hx (h ▸ List.mem_map_of_mem hpm)
            simp only [Env.set, if_neg hne]
            exact h1.vars p hpm
        · have := (hp.map Prod.fst).nodup_iff.2 (by
            simp only [List.map_cons, List.nodup_cons]; exact ⟨hx, h1.nodup⟩)
          exact this
        · intro y' hy'
          have hy' : a'.cov = .fresh y' := hy'
          obtain ⟨n, hn, hf⟩ := h1.fresh y' hy'
          have hne : y' ≠ x := by
            rintro rfl
            exact hfr (isFresh_iff.2 hy')
          exact ⟨n, by simp [Env.set, if_neg hne, hn], hf⟩
        · have hpo : (own y ++ owned a'.vars s.env).Perm (owned (insertVar x v a'.vars) (s.env.set x y)) := by
            refine List.Perm.symm ((owned_perm hp _).trans ?_)
            rw [owned_cons, owned_set hx]
            simp [Env.set]
          exact (h2.frameL (own y)).trans (Step.perm hpo _)

theorem dropFresh_sound {a b : AState} {s : St} (h : GS U toks a s) (hd : dropFresh a = .ok b) :
    GS U toks b s ∧ Go w z toks a s b s ∧ (∀ x, b.cov ≠ .fresh x) := by
  unfold dropFresh at hd
  split at hd
  · next x hx =>
    split at hd
    · cases hd
    · next b' hb =>
      split at hd
      · next hu =>
        cases hd
        obtain ⟨h1, h2⟩ := dropVar_sound (w := w) (z := z) h hb
        refine ⟨h1, h2, ?_⟩
        intro y hy
        rw [hy] at hu
        cases hu
      · cases hd
  · next hx => cases hd; exact ⟨h, Step.refl _ _, fun x => hx x⟩

theorem isUnc_iff {c : Cov} : isUnc c = true ↔ c = .unc := by
  cases c <;> simp [isUnc]

theorem needUnc_sound {a b : AState} {s : St} (h : GS U toks a s) (hd : needUnc a = .ok b) :
    GS U toks b s ∧ Go w z toks a s b s ∧ b.cov = .unc := by
  unfold needUnc at hd
  split at hd
  · cases hd
  · next b' hb =>
    obtain ⟨h1, h2, h3⟩ := dropFresh_sound (w := w) (z := z) h hb
    split at hd
    · next hu =>
      cases hd
      exact ⟨h1, h2, isUnc_iff.1 hu⟩
    · cases hd

/-! ### Inclusion and merging -/

theorem varsLe_sound {l l' : List (Var × AVal)} {env : Env} (hle : varsLe l l' = true)
    (h : ∀ p ∈ l, Γ U toks p.2 (env p.1)) (e : Nat) :
    (∀ p ∈ l', Γ U toks p.2 (env p.1)) ∧ (l'.map Prod.fst).Sublist (l.map Prod.fst) ∧
      Step w z toks (owned l env) e (owned l' env) e := by
  induction l generalizing l' with
  | nil =>
    cases l' with
    | nil => exact ⟨by simp, List.Sublist.refl _, Step.refl _ _⟩
    | cons => simp [varsLe] at hle
  | cons p l ih =>
    obtain ⟨x, v⟩ := p
    have hv : Γ U toks v (env x) := h (x, v) List.mem_cons_self
    have hl : ∀ p ∈ l, Γ U toks p.2 (env p.1) := fun p hp => h p (List.mem_cons_of_mem _ hp)
    cases l' with
    | nil =>
      simp only [varsLe, Bool.and_eq_true] at hle
      obtain ⟨h1, h2, h3⟩ := ih hle.2 hl
      refine ⟨h1, List.Sublist.cons _ h2, ?_⟩
      rw [owned_cons]
      exact ((free_step hv hle.1 e).frame _).trans h3
    | cons q l' =>
      obtain ⟨y, u⟩ := q
      simp only [varsLe] at hle
      split at hle
      · next hb =>
        have := Nat.eq_of_beq_eq_true hb
        subst this
        simp only [Bool.and_eq_true] at hle
        obtain ⟨h1, h2, h3⟩ := ih hle.2 hl
        refine ⟨?_, List.Sublist.cons_cons _ h2, ?_⟩
        · intro p hp
          rcases List.mem_cons.1 hp with rfl | hp
          · exact hv.mono hle.1
          · exact h1 p hp
        · rw [owned_cons, owned_cons]
          exact h3.frameL _
      · simp only [Bool.and_eq_true] at hle
        obtain ⟨h1, h2, h3⟩ := ih hle.2 hl
        refine ⟨h1, List.Sublist.cons _ h2, ?_⟩
        rw [owned_cons]
        exact ((free_step hv hle.1 e).frame _).trans h3

theorem MaskOk.mono {t0 t1 u0 u1 : Mask} {ps : PS} (h : MaskOk U toks t0 t1 ps)
    (h0 : t0.le u0 = true) (h1 : t1.le u1 = true) : MaskOk U toks u0 u1 ps :=
  ⟨fun t ht => Mask.le_has h0 (h.m0 t ht), fun t ht => Mask.le_has h1 (h.m1 t ht)⟩

theorem le_sound {a b : AState} {s : St} (hle : a.le b = true) (h : GS U toks a s) :
    GS U toks b s ∧ Go w z toks a s b s := by
  simp only [AState.le, Bool.and_eq_true] at hle
  obtain ⟨⟨⟨hc, h0⟩, h1⟩, hv⟩ := hle
  obtain ⟨g1, g2, g3⟩ := varsLe_sound (w := w) (z := z) hv h.vars (endOf toks a.cov s.ps)
  have hcov : endOf toks a.cov s.ps = endOf toks b.cov s.ps ∧ (∀ x, b.cov = .fresh x → a.cov = .fresh x) := by
    revert hc
    generalize a.cov = c
    generalize b.cov = d
    intro hc
    cases c <;> cases d <;> simp only [Cov.le, Bool.false_eq_true] at hc <;>
      first | exact hc.elim | refine ⟨rfl, fun x hx => ?_⟩ <;> cases hx
    rw [Nat.eq_of_beq_eq_true hc]
  refine ⟨⟨h.wf, h.mask.mono h0 h1, g1, g2.nodup h.nodup, fun x hx => h.fresh x (hcov.2 x hx)⟩, ?_⟩
  unfold Go
  rw [← hcov.1]
  exact g3

/-- Every state described by `i` is described by `j`. -/
def Cover (U : Unicode) (w : Token → Nat) (z : Bool) (toks : List Token) (i j : List AState) : Prop :=
  ∀ a ∈ i, ∀ s, GS U toks a s → ∃ b ∈ j, GS U toks b s ∧ Go w z toks a s b s

theorem Cover.refl (i : List AState) : Cover U w z toks i i := fun a ha _ h =>
  ⟨a, ha, h, Step.refl _ _⟩

theorem Cover.of_subset {i j : List AState} (h : ∀ a ∈ i, a ∈ j) : Cover U w z toks i j := fun a ha _ h' =>
  ⟨a, h a ha, h', Step.refl _ _⟩

theorem Cover.trans {i j k : List AState} (h : Cover U w z toks i j) (h' : Cover U w z toks j k) :
    Cover U w z toks i k := by
  intro a ha s hs
  obtain ⟨b, hb, h1, h2⟩ := h a ha s hs
  obtain ⟨c, hc, h3, h4⟩ := h' b hb s h1
  exact ⟨c, hc, h3, Step.trans h2 h4⟩

theorem Cover.of_le {i j : List AState} (h : (i.all fun s => j.any fun t => s.le t) = true) :
    Cover U w z toks i j := by
  intro a ha s hs
  obtain ⟨b, hb, hab⟩ := List.any_eq_true.1 (List.all_eq_true.1 h a ha)
  obtain ⟨h1, h2⟩ := le_sound (w := w) (z := z) hab hs
  exact ⟨b, hb, h1, h2⟩

theorem merge_cover {weak : Bool} {l m : List AState} (h : merge weak l = .ok m) :
    Cover U w z toks l m := by
  unfold merge at h
  split at h
  · cases h; exact Cover.refl _
  · cases h; exact Cover.refl _
  · dsimp only at h
    split at h
    · next hle => cases h; exact Cover.of_le hle
    · cases h

theorem Cover.append {i j i' j' : List AState} (h : Cover U w z toks i j) (h' : Cover U w z toks i' j') :
    Cover U w z toks (i ++ i') (j ++ j') := by
  intro a ha s hs
  rcases List.mem_append.1 ha with ha | ha
  · obtain ⟨b, hb, r⟩ := h a ha s hs
    exact ⟨b, List.mem_append_left _ hb, r⟩
  · obtain ⟨b, hb, r⟩ := h' a ha s hs
    exact ⟨b, List.mem_append_right _ hb, r⟩

end Verif.AI
