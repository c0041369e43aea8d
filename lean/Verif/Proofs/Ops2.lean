import Verif.Proofs.Ops
/-! Soundness of `push_node`, `push_node_vec`, of changing the type and of dropping nodes. -/
namespace Verif.AI
open Core Spec

variable {U : Unicode} {toks : List Token} {w : Token → Nat} {z : Bool}

theorem mapR_ok {α β : Type} {f : α → R β} {l : List α} {r : List β} (h : mapR f l = .ok r) :
    ∀ a ∈ l, ∃ b ∈ r, f a = .ok b := by
  induction l generalizing r with
  | nil => simp
  | cons a l ih =>
    simp only [mapR] at h
    split at h
    · cases h
    · next b hb =>
      split at h
      · cases h
      · next bs hbs =>
        cases h
        intro x hx
        rcases List.mem_cons.1 hx with rfl | hx
        · exact ⟨b, List.mem_cons_self, hb⟩
        · obtain ⟨y, hy, h⟩ := ih hbs x hx
          exact ⟨y, List.mem_cons_of_mem _ hy, h⟩

theorem Wt_node (n : Node) :
    Wt w [n] = twt w n + ((ents n.kids).map fun e => Wt w e.2.2).sum := by
  unfold Wt
  rw [List.flatMap_cons, List.flatMap_nil, List.append_nil, nodes_eq, List.map_cons, List.sum_cons]
  congr 1
  generalize ents n.kids = l
  induction l with
  | nil => rfl
  | cons a l ih => simp [ih]

theorem DL_node (n : Node) : DL z [n] ↔ Dirty z n ∨ ∃ e ∈ ents n.kids, DL z e.2.2 := by
  unfold DL
  constructor
  · rintro ⟨m, hm, x, hx, hd⟩
    simp at hm; subst hm
    rw [nodes_eq] at hx
    rcases List.mem_cons.1 hx with rfl | hx
    · exact .inl hd
    · obtain ⟨e, he, hx⟩ := List.mem_flatMap.1 hx
      obtain ⟨c, hc, hx⟩ := List.mem_flatMap.1 hx
      exact .inr ⟨e, he, c, hc, x, hx, hd⟩
  · rintro (h | ⟨e, he, c, hc, x, hx, hd⟩)
    · exact ⟨n, by simp, n, self_mem_nodes n, h⟩
    · refine ⟨n, by simp, x, ?_, hd⟩
      rw [nodes_eq]
      exact List.mem_cons_of_mem _ (List.mem_flatMap.2 ⟨e, he, List.mem_flatMap.2 ⟨c, hc, hx⟩⟩)

theorem mem_keys_look (n : Node) (k : Key) : k ∈ n.kids.keys ↔ look k (ents n.kids) ≠ none := by
  rw [mem_keys_iff, arrayAt_look]
  simp

theorem dirty_mono {n n' : Node} (hty : n'.ty = n.ty)
    (hk : ∀ k, look k (ents n.kids) ≠ none → look k (ents n'.kids) ≠ none) (h : Dirty z n) : Dirty z n' := by
  have hk' : ∀ k, k ∈ n.kids.keys → k ∈ n'.kids.keys := by
    intro k h; rw [mem_keys_look] at h ⊢; exact hk k h
  unfold Dirty DirtyT DirtyS at *
  rw [hty]
  rcases h with ⟨h1, h2, h3, h4⟩ | ⟨h0, ⟨h1, h2⟩ | ⟨h1, h2, h3⟩⟩
  · exact .inl ⟨h1, hk' _ h2, hk' _ h3, hk' _ h4⟩
  · exact .inr ⟨h0, .inl ⟨h1, hk' _ h2⟩⟩
  · exact .inr ⟨h0, .inr ⟨h1, hk' _ h2, hk' _ h3⟩⟩

theorem upd_step {n n' : Node} {k : Key} {b : Bool} {cs : List Node} (htok : n'.tok = n.tok)
    (hty : n'.ty = n.ty) (he : ents n'.kids = upd k (b, cs) (ents n.kids))
    (hd : look k (ents n.kids) = none ∨ Dirty z n' ∨
      ∃ u, look k (ents n.kids) = some u ∧ Wt w u.2 = 0 ∧ ¬ DL z u.2) (e : Nat) :
    Step w z toks (n :: cs) e [n'] e := by
  have ht : twt w n' = twt w n := by unfold twt; rw [htok]
  have hmono : Dirty z n → Dirty z n' := by
    apply dirty_mono hty
    intro k' hk'
    rw [he, look_upd]
    split <;> simp_all
  have hw : ∀ u, look k (ents n.kids) = some u →
      Wt w [n'] + Wt w u.2 = Wt w (n :: cs) ∧ (DL z (n :: cs) → DL z [n'] ∨ DL z u.2) := by
    intro u hu
    obtain ⟨l1, l2, h1, h2⟩ := upd_some (v := (b, cs)) hu
    constructor
    · rw [Wt_node n', ht, he, h2, Wt_cons n, Wt_node n, h1]
      simp only [List.map_append, List.map_cons, List.sum_append, List.sum_cons]
      omega
    · intro h
      rw [DL_cons, DL_node n] at h
      rcases h with (h | ⟨e', he', h⟩) | h
      · exact .inl ((DL_node n').2 (.inl (hmono h)))
      · rw [h1] at he'
        rcases List.mem_append.1 he' with h' | h'
        · exact .inl ((DL_node n').2 (.inr ⟨e', by rw [he, h2]; simp [h'], h⟩))
        · rcases List.mem_cons.1 h' with rfl | h'
          · exact .inr h
          · exact .inl ((DL_node n').2 (.inr ⟨e', by rw [he, h2]; simp [h'], h⟩))
      · exact .inl ((DL_node n').2 (.inr ⟨(k, b, cs), by rw [he, h2]; simp, h⟩))
  rcases hl : look k (ents n.kids) with _ | u
  · have h2 := upd_none (v := (b, cs)) hl
    refine ⟨0, ?_, ?_⟩
    · rw [Wt_node n', ht, he, h2, Wt_cons n, Wt_node n]
      simp only [List.map_append, List.map_cons, List.map_nil, List.sum_append, List.sum_cons, List.sum_nil]
      omega
    · rintro (h | h)
      · exact absurd rfl h
      · rw [DL_cons, DL_node n] at h
        rcases h with (h | ⟨e', he', h⟩) | h
        · exact (DL_node n').2 (.inl (hmono h))
        · exact (DL_node n').2 (.inr ⟨e', by rw [he, h2]; simp [he'], h⟩)
        · exact (DL_node n').2 (.inr ⟨(k, b, cs), by rw [he, h2]; simp, h⟩)
  · obtain ⟨h1, h2⟩ := hw u hl
    rcases hd with hd | hd | ⟨u', hu', hw0, hd0⟩
    · rw [hl] at hd; cases hd
    · exact ⟨Wt w u.2, by omega, fun _ => (DL_node n').2 (.inl hd)⟩
    · rw [hl] at hu'; cases hu'
      refine ⟨0, by omega, ?_⟩
      rintro (h | h)
      · exact absurd rfl h
      · rcases h2 h with h | h
        · exact h
        · exact absurd h hd0

/-- With `z`, the weight ignores comments and semicolons. -/
def Ignores (z : Bool) (w : Token → Nat) : Prop :=
  z = true → ∀ t : Token, t.isComment = true ∨ t.literal = Kw.lit .sym_semi → w t = 0

theorem comment_weight (hz : Ignores true w) {c : Node} (h : CommentLeaf c) :
    Wt w [c] = 0 ∧ ¬ DL z [c] := by
  obtain ⟨t, rfl, ht⟩ := h
  constructor
  · rw [Wt_node]
    simp [Node.kids, ents, twt, Node.tok, hz rfl t (.inl ht)]
  · rw [DL_node]
    rintro (h | ⟨e, he, _⟩)
    · unfold Dirty DirtyT DirtyS at h
      simp [Node.ty] at h
    · simp [Node.kids, ents] at he

theorem comment_clean {c : Node} (h : CommentLeaf c) : ¬ DL z [c] := by
  obtain ⟨t, rfl, ht⟩ := h
  rw [DL_node]
  rintro (h | ⟨e, he, _⟩)
  · unfold Dirty DirtyT DirtyS at h
    simp [Node.ty] at h
  · simp [Node.kids, ents] at he

theorem list_zero {l : List Node} (h : ∀ c ∈ l, Wt w [c] = 0) : Wt w l = 0 := by
  induction l with
  | nil => rfl
  | cons a l ih =>
    rw [Wt_cons, h a List.mem_cons_self, ih fun c hc => h c (List.mem_cons_of_mem _ hc)]

theorem list_clean {l : List Node} (h : ∀ c ∈ l, ¬ DL z [c]) : ¬ DL z l := by
  rintro ⟨n, hn, r⟩
  exact h n hn ⟨n, by simp, r⟩

theorem closed_j {c : Node} (h : Closed U toks c) (ht : c.ty ≠ .Comment) : J U toks c ∧ Close U c := by
  rcases h c (self_mem_nodes c) with ⟨t, rfl, _⟩ | h
  · exact absurd rfl ht
  · exact h

theorem sum_zero {l : List Nat} (h : ∀ x ∈ l, x = 0) : l.sum = 0 := by
  induction l with
  | nil => rfl
  | cons a l ih =>
    rw [List.sum_cons, h a List.mem_cons_self, ih fun x hx => h x (List.mem_cons_of_mem _ hx)]

theorem semi_weight (hz : Ignores true w) {c : Node} (hc : Closed U toks c) (h : SymLeaf .sym_semi c) :
    Wt w [c] = 0 ∧ ¬ DL z [c] := by
  have hj := (closed_j hc (by rw [h.ty]; decide)).1
  have hk : ∀ e ∈ ents c.kids, ∀ x ∈ e.2.2, CommentLeaf x := fun e he x hx =>
    (hj.kid e he x hx).comment (h.kids e he)
  constructor
  · rw [Wt_node]
    obtain ⟨t, ht, hl⟩ := h.tok
    have h1 : twt w c = 0 := by unfold twt; rw [ht]; exact hz rfl t (.inr hl)
    rw [h1]
    have : ∀ x ∈ ((ents c.kids).map fun e => Wt w e.2.2), x = 0 := by
      intro x hx
      obtain ⟨e, he, rfl⟩ := List.mem_map.1 hx
      exact list_zero fun c' hc' => (comment_weight (z := z) hz (hk e he c' hc')).1
    rw [sum_zero this]
  · rw [DL_node]
    rintro (hd | ⟨e, he, hd⟩)
    · unfold Dirty DirtyT DirtyS at hd
      rw [h.ty] at hd
      simp at hd
    · exact list_clean (fun c' hc' => comment_clean (hk e he c' hc')) hd

theorem has_or {m : Mask} {k k' : Key} (h : (m ||| kbit k).testBit k'.ctorIdx = true) :
    m.testBit k'.ctorIdx = true ∨ k' = k := by
  rw [Nat.testBit_or, Bool.or_eq_true] at h
  rcases h with h | h
  · exact .inl h
  · unfold kbit at h
    rw [testBit_bit] at h
    exact .inr (key_inj (by simpa using h)).symm

/-- Keys known to be present after an insertion. -/
theorem must_upd {a : Alt} {n n' : Node} {k : Key} {v : Bool × List Node} (hs : Sat U a n)
    (he : ents n'.kids = upd k v (ents n.kids)) {k' : Key}
    (h : (a.must ||| kbit k).testBit k'.ctorIdx = true) : look k' (ents n'.kids) ≠ none := by
  rw [he, look_upd]
  rcases has_or h with h | rfl
  · split
    · simp
    · have := hs.must k' h
      rw [arrayAt_look] at this
      simpa using this
  · simp

theorem dirtyT_sound {a : Alt} {n n' : Node} {k : Key} {v : Bool × List Node} (hs : Sat U a n)
    (hty : n'.ty = n.ty) (he : ents n'.kids = upd k v (ents n.kids))
    (h : dirtyT a.ty (a.must ||| kbit k) = true) : DirtyT n' := by
  simp only [dirtyT, Bool.and_eq_true, tyEq_iff, Mask.has] at h
  refine ⟨by rw [hty, hs.ty, h.1.1.1], ?_, ?_, ?_⟩
  · rw [mem_keys_look]; exact must_upd hs he h.1.1.2
  · rw [mem_keys_look]; exact must_upd hs he h.1.2
  · rw [mem_keys_look]; exact must_upd hs he h.2

theorem dirtyK_sound {a : Alt} {n n' : Node} {k : Key} {v : Bool × List Node} (hs : Sat U a n)
    (hty : n'.ty = n.ty) (he : ents n'.kids = upd k v (ents n.kids))
    (h : dirtyK a.ty (a.must ||| kbit k) = true) : DirtyT n' ∨ DirtyS n' := by
  simp only [dirtyK, Bool.or_eq_true] at h
  rcases h with (h | h) | h
  · simp only [Bool.and_eq_true, tyEq_iff, Mask.has] at h
    refine .inr (.inl ⟨by rw [hty, hs.ty, h.1], ?_⟩)
    rw [mem_keys_look]; exact must_upd hs he h.2
  · simp only [Bool.and_eq_true, Bool.or_eq_true, tyEq_iff, Mask.has] at h
    refine .inr (.inr ⟨by rw [hty, hs.ty]; exact h.1.1, ?_, ?_⟩)
    · rw [mem_keys_look]; exact must_upd hs he h.1.2
    · rw [mem_keys_look]; exact must_upd hs he h.2
  · exact .inl (dirtyT_sound hs hty he h)

theorem dirtyMay_sound {a : Alt} {n : Node} (hs : Sat U a n) (h : a.dirtyMay = false) : ¬ Dirty z n := by
  intro hd
  have hk : ∀ k, k ∈ n.kids.keys → (a.mN ||| a.mV).testBit k.ctorIdx = true := fun k hk =>
    hs.may ((mem_keys_iff _ _).1 hk)
  have : a.dirtyMay = true := by
    unfold Alt.dirtyMay dirtyK dirtyT Mask.has
    simp only [Bool.or_eq_true, Bool.and_eq_true, tyEq_iff]
    rw [← hs.ty]
    rcases hd with ⟨h1, h2, h3, h4⟩ | ⟨_, ⟨h1, h2⟩ | ⟨h1, h2, h3⟩⟩
    · exact .inr ⟨⟨⟨h1, hk _ h2⟩, hk _ h3⟩, hk _ h4⟩
    · exact .inl (.inl ⟨h1, hk _ h2⟩)
    · exact .inl (.inr ⟨⟨h1, hk _ h2⟩, hk _ h3⟩)
  rw [h] at this; cases this

theorem nodeCls_eq {n n' : Node} (h : n'.tok = n.tok) : nodeCls U n' = nodeCls U n := by
  unfold nodeCls; rw [h]

/-- The local facts after an insertion under a key that is not for comments. -/
theorem j_upd {n n' : Node} {k : Key} {b : Bool} {cs : List Node} (hj : J U toks n) (htok : n'.tok = n.tok)
    (hty : n'.ty = n.ty) (he : ents n'.kids = upd k (b, cs) (ents n.kids)) (hk : ¬ IsCommentKey k)
    (hc : ∀ c ∈ cs, KidOk U n.ty (nodeCls U n) k c) : J U toks n' := by
  have hkl : k ≠ .k_leading_comments := fun h => hk (.inl h)
  have hkt : k ≠ .k_trailing_comments := fun h => hk (.inr h)
  have hat : ∀ k', k' ≠ k → arrayAt n'.kids k' = arrayAt n.kids k' := by
    intro k' h
    rw [arrayAt_look, arrayAt_look, he, look_upd, if_neg h]
  have hch : ∀ k', k' ≠ k → childrenAt n' k' = childrenAt n k' := by
    intro k' h
    rw [childrenAt_ents, childrenAt_ents, he, childrenAt_upd h]
  refine ⟨by rw [hty]; exact hj.ty, ?_, ?_, ?_⟩
  · intro e' he' c' hc'
    rw [he] at he'
    rw [hty, nodeCls_eq htok]
    rcases mem_upd he' with rfl | h
    · exact hc c' hc'
    · exact hj.kid e' h c' hc'
  · have := hj.lits
    exact ⟨by rw [hty, htok]; exact this.null, by rw [hty, htok]; exact this.boolean,
      by rw [hty, htok]; exact this.parameter, by rw [hty, htok]; exact this.template,
      by rw [hty, htok]; exact this.asterisk⟩
  · rcases hj.comments with ⟨h1, h2, h3⟩ | ⟨i, h⟩
    · exact .inl ⟨by rw [htok, h1], by rw [hat _ hkl.symm, h2], by rw [hat _ hkt.symm, h3]⟩
    · exact .inr ⟨i, by rw [htok]; exact h.token, h.exists_, by rw [hch _ hkl.symm]; exact h.leading,
        by rw [hch _ hkt.symm]; exact h.trailing, fun g => by rw [hat _ hkl.symm]; exact h.no_leading g,
        fun g => by rw [hat _ hkt.symm]; exact h.no_trailing g⟩

/-- `push_node`. -/
theorem push_sound {as as' : List Alt} {n c : Node} {k : Key} (hn : Is U toks as n)
    (hz : Ignores z w)
    (hk : ¬ IsCommentKey k) (hc : Closed U toks c) (hkid : ∀ a ∈ as, ∀ p, a.lit.testBit p = true → KidOk U a.ty p k c)
    (hm : mapR (Alt.pushNode k) as = .ok as') (e : Nat) :
    Is U toks as' (n.pushNode k c) ∧ Step w z toks [n, c] e [n.pushNode k c] e := by
  obtain ⟨ho, a, ha, hs⟩ := hn
  obtain ⟨a', ha', hp⟩ := mapR_ok hm a ha
  have he := ents_pushNode n k c
  have hte : (n.pushNode k c).tok = n.tok := rfl
  have hye : (n.pushNode k c).ty = n.ty := rfl
  unfold Alt.pushNode at hp
  split at hp
  · cases hp
  · next hcond =>
    cases hp
    constructor
    · refine ⟨⟨j_upd ho.j hte hye he hk ?_, ?_⟩, _, ha', ⟨?_, ?_, ?_, ?_, ?_⟩⟩
      · intro c' hc'
        simp at hc'; subst hc'
        rw [hs.ty]; exact hkid a ha _ hs.lit
      · intro e' he' c' hc'
        rw [he] at he'
        rcases mem_upd he' with rfl | h
        · simp at hc'; subst hc'; exact hc
        · exact ho.kids e' h c' hc'
      · exact hs.ty
      · intro k' h
        rw [arrayAt_look, he, look_upd] at h
        show Nat.testBit (a.mN ||| kbit k) _ = true
        rw [Nat.testBit_or, Bool.or_eq_true]
        split at h
        · next hkk => subst hkk; right; simp [kbit, testBit_bit]
        · left; rw [← arrayAt_look] at h; exact hs.node k' h
      · intro k' h
        rw [arrayAt_look, he, look_upd] at h
        split at h
        · simp at h
        · rw [← arrayAt_look] at h; exact hs.vec k' h
      · intro k' h
        have := must_upd hs he h
        rw [arrayAt_look]
        simpa using this
      · show a.lit.testBit _ = true
        rw [nodeCls_eq hte]; exact hs.lit
    · refine upd_step (cs := [c]) hte hye he ?_ e
      rcases hl : look k (ents n.kids) with _ | u
      · exact .inl rfl
      · right
        have hmay : (a.mN ||| a.mV).has k.ctorIdx = true := hs.may (by rw [arrayAt_look, hl]; simp)
        rw [hmay] at hcond
        simp only [Bool.true_and, Bool.not_eq_true', Bool.not_eq_false, Bool.or_eq_true,
          Bool.and_eq_true] at hcond
        rcases hcond with h | ⟨h1, h2⟩
        · exact .inl (.inl (dirtyT_sound hs hye he h))
        · rcases dirtyK_sound hs hye he h2 with h | h
          · exact .inl (.inl h)
          · rcases hzz : z with _ | _
            · exact .inl (.inr ⟨rfl, h⟩)
            · right
              subst hzz
              have hk1 := key_beq.1 h1
              have hmem := mem_of_look hl
              have hsm : ∀ x ∈ u.2, SymLeaf .sym_semi x := fun x hx =>
                (ho.j.kid _ hmem x hx).semicolon hk1
              refine ⟨u, rfl, list_zero fun x hx => ?_, list_clean fun x hx => ?_⟩
              · exact (semi_weight (z := true) hz (ho.kids _ hmem x hx) (hsm x hx)).1
              · exact (semi_weight (z := true) hz (ho.kids _ hmem x hx) (hsm x hx)).2

/-- `push_node_vec`. -/
theorem pushVec_sound {as as' : List Alt} {n : Node} {cs : List Node} {k : Key} (hn : Is U toks as n)
    (hk : ¬ IsCommentKey k) (hc : ∀ c ∈ cs, Closed U toks c)
    (hkid : ∀ a ∈ as, ∀ p, a.lit.testBit p = true → ∀ c ∈ cs, KidOk U a.ty p k c)
    (hm : mapR (Alt.pushVec k) as = .ok as') (e : Nat) :
    Is U toks as' (n.pushVec k cs) ∧ Step w z toks (n :: cs) e [n.pushVec k cs] e := by
  obtain ⟨ho, a, ha, hs⟩ := hn
  obtain ⟨a', ha', hp⟩ := mapR_ok hm a ha
  have he := ents_pushVec n k cs
  have hte : (n.pushVec k cs).tok = n.tok := rfl
  have hye : (n.pushVec k cs).ty = n.ty := rfl
  unfold Alt.pushVec at hp
  split at hp
  · cases hp
  · next hcond =>
    cases hp
    constructor
    · refine ⟨⟨j_upd ho.j hte hye he hk ?_, ?_⟩, _, ha', ⟨?_, ?_, ?_, ?_, ?_⟩⟩
      · intro c' hc'
        rw [hs.ty]; exact hkid a ha _ hs.lit c' hc'
      · intro e' he' c' hc'
        rw [he] at he'
        rcases mem_upd he' with rfl | h
        · exact hc c' hc'
        · exact ho.kids e' h c' hc'
      · exact hs.ty
      · intro k' h
        rw [arrayAt_look, he, look_upd] at h
        split at h
        · simp at h
        · rw [← arrayAt_look] at h; exact hs.node k' h
      · intro k' h
        rw [arrayAt_look, he, look_upd] at h
        show Nat.testBit (a.mV ||| kbit k) _ = true
        rw [Nat.testBit_or, Bool.or_eq_true]
        split at h
        · next hkk => subst hkk; right; simp [kbit, testBit_bit]
        · left; rw [← arrayAt_look] at h; exact hs.vec k' h
      · intro k' h
        have := must_upd hs he h
        rw [arrayAt_look]
        simpa using this
      · show a.lit.testBit _ = true
        rw [nodeCls_eq hte]; exact hs.lit
    · refine upd_step hte hye he ?_ e
      rcases hl : look k (ents n.kids) with _ | u
      · exact .inl rfl
      · right; left
        have hmay : (a.mN ||| a.mV).has k.ctorIdx = true := hs.may (by rw [arrayAt_look, hl]; simp)
        rw [hmay] at hcond
        simp only [Bool.true_and, Bool.not_eq_true', Bool.not_eq_false] at hcond
        exact .inl (dirtyT_sound hs hye he hcond)

theorem lookupRestr_mem {k : Nat} {l : List (Nat × Mask)} {m : Mask} (h : lookupRestr k l = some m) :
    (k, m) ∈ l := by
  induction l with
  | nil => simp [lookupRestr] at h
  | cons p l ih =>
    obtain ⟨k', m'⟩ := p
    simp only [lookupRestr] at h
    split at h
    · next hb =>
      cases h
      rw [Nat.eq_of_beq_eq_true hb]
      exact List.mem_cons_self
    · exact List.mem_cons_of_mem _ (ih h)

/-- Assignment to the type of a node. -/
theorem setType_sound (hU : U.Lawful) {as : List Alt} {n : Node} {nt : NodeType} (hn : Is U toks as n)
    (hty : typeOk nt = true)
    (hall : ∀ b ∈ as, b.dirtyMay = false ∧ childStay b.ty nt (b.mN ||| b.mV) b.lit = true ∧
      (nt = .Asterisk → b.lit.le (bit Kw.sym_star.ctorIdx) = true)) (e : Nat) :
    Is U toks (as.map fun b => ⟨nt, b.mN, b.mV, b.must, b.lit⟩) (n.setType nt) ∧
      Step w z toks [n] e [n.setType nt] e := by
  obtain ⟨ho, a, ha, hs⟩ := hn
  obtain ⟨hd, hst, hast⟩ := hall a ha
  obtain ⟨hE, hC, h3, h4, h5, h6⟩ := typeOk_iff hty
  have hke : (n.setType nt).kids = n.kids := rfl
  have hye : (n.setType nt).ty = nt := rfl
  have hte : (n.setType nt).tok = n.tok := rfl
  refine ⟨⟨⟨⟨⟨hE, hC⟩, ?_, ?_, ?_⟩, ho.kids⟩, _, List.mem_map.2 ⟨a, ha, rfl⟩,
    ⟨rfl, hs.node, hs.vec, hs.must, hs.lit⟩⟩, 0, ?_, ?_⟩
  · intro e' he' c hc
    have h := ho.j.kid e' he' c hc
    unfold childStay at hst
    rw [Bool.and_eq_true] at hst
    have hmay : (a.mN ||| a.mV).testBit e'.1.ctorIdx = true := hs.may (by
      rw [arrayAt_look]
      have := look_of_mem he'
      rw [hke] at this
      simpa using this)
    refine ⟨h.comment, h.other, h.semicolon, h.comma, ?_, ?_⟩
    · intro m hm hck
      rw [hye] at hm
      have hmem := lookupRestr_mem hm
      have := List.all_eq_true.1 hst.1 _ hmem
      simp only [Bool.or_eq_true, Bool.not_eq_true', Mask.has] at this
      rw [hmay] at this
      rcases this with h' | h'
      · cases h'
      · split at h'
        · cases h'
        · next m' hm' =>
          refine Mask.le_has h' (h.restr m' ?_ hck)
          rw [hs.ty]; exact hm'
    · intro r hr hkey hp hck
      rw [hye] at hr
      rw [nodeCls_eq hte] at hp
      have := List.all_eq_true.1 hst.2 r hr
      rw [Bool.or_eq_true, Bool.or_eq_true, hkey, Mask.has, hmay, Role.applies_iff hkey hp hs.lit] at this
      rcases this with (h' | h') | h'
      · cases h'
      · cases h'
      · obtain ⟨r', hr', hc', hp'⟩ := Role.covered_mem (p := nodeCls U n)
          (Mask.le_has h' (by rw [Nat.testBit_and, hp, hs.lit]; rfl))
        simp only [Role.stricter, Bool.and_eq_true] at hc'
        obtain ⟨⟨⟨⟨c1, c3⟩, c4⟩, c5⟩, c6⟩ := hc'
        obtain ⟨d1, d2, d3, d4⟩ := h.role r' (by rw [hs.ty]; exact hr')
          ((Nat.eq_of_beq_eq_true c1).trans hkey) hp' hck
        exact ⟨Mask.le_has c3 d1, Mask.le_has c4 d2, fun k' hk' => Mask.le_has c5 (d3 k' hk'),
          OfType.stricter_sound d1 c6 d4⟩
  · refine ⟨fun h => absurd h h3, fun h => absurd h h4, fun h => absurd h h5, fun h => absurd h h6, ?_⟩
    intro h
    have hl := Mask.le_has (hast h) hs.lit
    rw [testBit_bit] at hl
    simp only [decide_eq_true_eq] at hl
    rw [hte]
    unfold nodeCls at hl
    split at hl
    · next t ht =>
      refine ⟨t, ht, ?_⟩
      have := clsOf_eq.1 hl.symm
      unfold Token.upper at this
      exact upper_sym_eq hU this (sym_chars _ (mem_kw_all _) (by decide))
    · exact absurd hl (by decide)
  · rcases ho.j.comments with h | ⟨i, h⟩
    · exact .inl h
    · exact .inr ⟨i, h.token, h.exists_, h.leading, h.trailing, h.no_leading, h.no_trailing⟩
  · rw [Wt_node n, Wt_node (n.setType nt)]
    rfl
  · rintro (h | h)
    · exact absurd rfl h
    · rw [DL_node] at h ⊢
      rcases h with h | h
      · exact absurd h (dirtyMay_sound hs hd)
      · exact .inr h

theorem Fresh.setType {s : PS} {n : Node} (h : Fresh U toks s n) (nt : NodeType) :
    Fresh U toks s (n.setType nt) := by
  refine ⟨h.tok, h.kids, ?_⟩
  intro w
  rw [← h.weight w, Wt_node n, Wt_node (n.setType nt)]
  rfl

/-- Dropping a value that owns no token. -/
theorem free_own {v : AVal} {x : Val} (h : Γ U toks v x) (hf : v.free = true) :
    Wt w (own x) = 0 ∧ ¬ DL z (own x) := by
  unfold AVal.free at hf
  split at hf
  · cases x <;> try exact h.elim
    next as n =>
    obtain ⟨ho, a, ha, hs⟩ := h
    have := List.all_eq_true.1 hf a ha
    simp only [Bool.and_eq_true] at this
    obtain ⟨⟨h1, h2⟩, h3⟩ := this
    have h2 := Nat.eq_of_beq_eq_true h2
    have h3 := Nat.eq_of_beq_eq_true h3
    have hl := Mask.le_has h1 hs.lit
    rw [testBit_bit] at hl
    simp only [decide_eq_true_eq] at hl
    have htok : n.tok = none := by
      unfold nodeCls at hl
      split at hl
      · next t _ => have := cls_lt U t; unfold NOTOK at hl; omega
      · next h => exact h
    have hents : ents n.kids = [] := by
      rcases hc : ents n.kids with _ | ⟨e, l⟩
      · rfl
      · exfalso
        have := look_of_mem (l := ents n.kids) (e := e) (by rw [hc]; simp)
        have := hs.may (k := e.1) (by rw [arrayAt_look]; simpa using this)
        rw [h2, h3] at this
        simp at this
    constructor
    · show Wt w [n] = 0
      rw [Wt_node, hents]
      simp [twt, htok]
    · show ¬ DL z [n]
      rw [DL_node, hents]
      rintro (hd | ⟨e, he, _⟩)
      · have hk : ∀ k, k ∉ n.kids.keys := by
          intro k hk
          rw [mem_keys_look, hents] at hk
          exact hk rfl
        rcases hd with ⟨_, h2, _⟩ | ⟨_, ⟨_, h2⟩ | ⟨_, h2, _⟩⟩ <;> exact hk _ h2
      · simp at he
  · cases hf
  · cases x <;> try exact h.elim
    next ns =>
    obtain ⟨_, _, h3, h4⟩ := h
    simp only [Bool.and_eq_true, Bool.not_eq_true'] at hf
    have : ns = [] := by
      rcases ns with _ | ⟨a, _ | ⟨b, l⟩⟩
      · rfl
      · have := h3 rfl; rw [hf.1] at this; cases this
      · have := h4 (by simp); rw [hf.2] at this; cases this
    subst this
    exact ⟨rfl, DL_nil⟩
  · next h1 h2 h3 =>
    have : own x = [] := by
      cases v <;> cases x <;> first | exact h.elim | rfl | skip
      · exact absurd rfl (h1 _)
      · exact absurd rfl h2
      · exact absurd rfl (h3 _ _ _ _)
    rw [this]
    exact ⟨rfl, DL_nil⟩

theorem free_step {v : AVal} {x : Val} (h : Γ U toks v x) (hf : v.free = true) (e : Nat) :
    Step w z toks (own x) e [] e := by
  obtain ⟨h1, h2⟩ := free_own (w := w) (z := z) h hf
  refine ⟨0, by rw [h1]; rfl, ?_⟩
  rintro (h | h)
  · exact absurd rfl h
  · exact absurd h h2

/-- Dropping a node that holds just the current token. -/
theorem fresh_step {as : List Alt} {s : PS} {n : Node} (h : Is U toks as n) (hf : Fresh U toks s n)
    (hd : as.any Alt.dirtyMay = false) :
    Step w z toks [n] (trailEnd toks s.pos) [] (leadStart toks s.pos) := by
  have hw := hf.weight w
  refine ⟨0, by rw [Wt_nil]; omega, ?_⟩
  rintro (h' | h')
  · exact absurd rfl h'
  · exfalso
    rw [DL_node] at h'
    obtain ⟨ho, a, ha, hs⟩ := h
    rcases h' with h' | ⟨e, he, h'⟩
    · refine dirtyMay_sound hs ?_ h'
      rw [← Bool.not_eq_true]
      intro ht
      rw [← Bool.not_eq_true] at hd
      exact hd (List.any_eq_true.2 ⟨a, ha, ht⟩)
    · exact list_clean (fun c hc => comment_clean ((ho.j.kid e he c hc).comment (hf.kids e he))) h'

end Verif.AI
