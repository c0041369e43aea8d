import Verif.Spec.Order
import Verif.Proofs.TreeOps
/-! Trees written out as tokens: facts that do not depend on the parser. -/
namespace Verif.OI
open Spec Core

/-- A weaker order allows more. -/
theorem Prints.anti {b b' : NodeType → Slot → Slot → Prop} (hb : ∀ ty x y, b' ty x y → b ty x y)
    {n : Node} {w : List Token} (h : Prints b n w) : Prints b' n w := by
  refine Prints.rec (motive_1 := fun n w _ => Prints b' n w) (motive_2 := fun n s w _ => Held b' n s w)
    (motive_3 := fun ns w _ => PrintsAll b' ns w) ?_ ?_ ?_ ?_ ?_ h
  · intro n parts all _ order ih
    exact .node n parts all ih (order.imp fun h1 h2 => h1 (hb _ _ _ h2))
  · intro n t h; exact .token h
  · intro n k w _ ih; exact .child ih
  · exact .nil
  · intro n ns w w' _ _ ih1 ih2; exact .cons ih1 ih2

/-! ### The tokens of a tree -/

theorem tokensOf_eq (n : Node) :
    tokensOf n = n.tok.toList ++ (ents n.kids).flatMap fun e => e.2.2.flatMap tokensOf := by
  unfold tokensOf
  rw [nodes_eq, List.filterMap_cons]
  have : ((ents n.kids).flatMap fun e => e.2.2.flatMap nodes).filterMap Node.tok =
      (ents n.kids).flatMap fun e => e.2.2.flatMap fun n => (nodes n).filterMap Node.tok := by
    rw [List.filterMap_flatMap]
    refine List.flatMap_congr fun e _ => ?_
    rw [List.filterMap_flatMap]
  rw [this]
  cases n.tok <;> rfl

theorem keys_ents (ks : Kids) : ks.keys = (ents ks).map Prod.fst := by
  refine Kids.rec (motive_1 := fun _ => True) (motive_2 := fun ks => ks.keys = (ents ks).map Prod.fst)
    (motive_3 := fun _ => True) (fun _ _ _ _ => trivial) ?_ ?_ ?_ trivial (fun _ _ _ _ => trivial) ks
  · rfl
  · intro k n r _ ih; simp [Kids.keys, ents, ih]
  · intro k n r _ ih; simp [Kids.keys, ents, ih]

theorem flatMap_at {k : Key} {v : Bool × List Node} : ∀ {l : List (Key × Bool × List Node)},
    (l.map Prod.fst).Nodup → (k, v) ∈ l → (l.flatMap fun e => if e.1 = k then e.2.2 else []) = v.2
  | e :: r, hn, h => by
    rw [List.map_cons, List.nodup_cons] at hn
    rw [List.flatMap_cons]
    rcases List.mem_cons.1 h with h | h
    · subst h
      rw [if_pos rfl]
      have : (r.flatMap fun e => if e.1 = k then e.2.2 else []) = [] := by
        rw [List.flatMap_eq_nil_iff]
        intro x hx
        rw [if_neg]
        rintro rfl
        exact hn.1 (List.mem_map.2 ⟨x, hx, rfl⟩)
      rw [this, List.append_nil]
    · rw [if_neg, List.nil_append]
      · exact flatMap_at hn.2 h
      · intro he
        have := List.mem_map_of_mem (f := Prod.fst) h
        rw [← he] at this
        exact hn.1 this

theorem childrenAt_mem {n : Node} (hn : n.kids.keys.Nodup) {e : Key × Bool × List Node}
    (h : e ∈ ents n.kids) : childrenAt n e.1 = e.2.2 := by
  rw [childrenAt_ents]
  rw [keys_ents] at hn
  exact flatMap_at hn h

theorem mem_slots_child {n : Node} {e : Key × Bool × List Node} (h : e ∈ ents n.kids) (hne : e.2.2 ≠ []) :
    Slot.child e.1 ∈ slots n := by
  unfold slots
  rw [children_ents]
  refine List.mem_append_right _ (List.mem_map.2 ⟨(e.1, e.2.2), ?_, rfl⟩)
  rw [List.mem_filter]
  refine ⟨List.mem_map_of_mem h, ?_⟩
  cases he : e.2.2 with
  | nil => exact absurd he hne
  | cons _ _ => rfl

theorem slots_tokens (n : Node) (hn : n.kids.keys.Nodup) :
    (slots n).flatMap (partTokens n) = tokensOf n := by
  rw [tokensOf_eq]
  unfold slots
  rw [List.flatMap_append, children_ents]
  congr 1
  · cases h : n.tok <;> simp [partTokens, h]
  · rw [List.flatMap_map]
    have : ∀ l : List (Key × Bool × List Node), (∀ e ∈ l, e ∈ ents n.kids) →
        ((l.map fun e => (e.1, e.2.2)).filter fun e => !e.2.isEmpty).flatMap
          (fun e => partTokens n (.child e.1)) = l.flatMap fun e => e.2.2.flatMap tokensOf := by
      intro l
      induction l with
      | nil => intro _; rfl
      | cons e r ih =>
        intro h
        have ih := ih fun e he => h e (List.mem_cons_of_mem _ he)
        rw [List.map_cons, List.filter_cons, List.flatMap_cons]
        have h1 := childrenAt_mem hn (h e List.mem_cons_self)
        split
        · rw [List.flatMap_cons, ih]
          show (childrenAt n e.1).flatMap tokensOf ++ _ = _
          rw [h1]
        · next he =>
          rw [ih]
          cases hl : e.2.2 with
          | nil => rfl
          | cons _ _ => rw [hl] at he; exact absurd rfl he
    exact this _ fun _ h => h

/-- Every node of the tree has each key once. -/
def Uniq (n : Node) : Prop := ∀ m ∈ nodes n, m.kids.keys.Nodup

theorem Uniq.child {n : Node} (h : Uniq n) {k : Key} {c : Node} (hc : c ∈ childrenAt n k) : Uniq c := by
  intro m hm
  refine h m ?_
  rw [nodes_eq]
  refine List.mem_cons_of_mem _ ?_
  rw [childrenAt_ents] at hc
  obtain ⟨e, he, hc⟩ := List.mem_flatMap.1 hc
  refine List.mem_flatMap.2 ⟨e, he, List.mem_flatMap.2 ⟨c, ?_, hm⟩⟩
  split at hc
  · exact hc
  · cases hc

theorem perm_flatMap {α β : Type} {f g : α → List β} : ∀ {l : List α}, (∀ x ∈ l, (f x).Perm (g x)) →
    (l.flatMap f).Perm (l.flatMap g)
  | [], _ => List.Perm.refl _
  | a :: l, h => by
    rw [List.flatMap_cons, List.flatMap_cons]
    exact (h a List.mem_cons_self).append (perm_flatMap fun x hx => h x (List.mem_cons_of_mem _ hx))

variable {b : NodeType → Slot → Slot → Prop}

/-- What is written out are the tokens of the tree. -/
theorem prints_perm {n : Node} {w : List Token} (h : Prints b n w) (hu : Uniq n) : w.Perm (tokensOf n) := by
  refine Prints.rec (motive_1 := fun n w _ => Uniq n → w.Perm (tokensOf n))
    (motive_2 := fun n s w _ => Uniq n → w.Perm (partTokens n s))
    (motive_3 := fun ns w _ => (∀ n ∈ ns, Uniq n) → w.Perm (ns.flatMap tokensOf)) ?_ ?_ ?_ ?_ ?_ h hu
  · intro n parts all _ order ih hu
    rw [← slots_tokens n (hu n (by rw [nodes_eq]; exact List.mem_cons_self))]
    refine List.Perm.trans (perm_flatMap fun p hp => ih p hp hu) ?_
    have := all.flatMap_right (partTokens n)
    rwa [List.flatMap_map] at this
  · intro n t h _
    show [t].Perm n.tok.toList
    rw [h]
    exact List.Perm.refl _
  · intro n k w _ ih hu
    exact ih fun c hc => hu.child hc
  · intro _; exact List.Perm.refl _
  · intro n ns w w' _ _ ih1 ih2 hu
    rw [List.flatMap_cons]
    exact (ih1 (hu n List.mem_cons_self)).append (ih2 fun m hm => hu m (List.mem_cons_of_mem _ hm))

theorem printsAll_perm : ∀ {ns : List Node} {w : List Token}, PrintsAll b ns w → (∀ n ∈ ns, Uniq n) →
    w.Perm (ns.flatMap tokensOf)
  | _, _, .nil, _ => List.Perm.refl _
  | _, _, .cons h t, hu => by
    rw [List.flatMap_cons]
    exact (prints_perm h (hu _ List.mem_cons_self)).append
      (printsAll_perm t fun m hm => hu m (List.mem_cons_of_mem _ hm))

theorem held_perm {n : Node} {s : Slot} {w : List Token} (h : Held b n s w) (hu : Uniq n) :
    w.Perm (partTokens n s) := by
  cases h with
  | token h => show [_].Perm n.tok.toList; rw [h]; exact List.Perm.refl _
  | child h => exact printsAll_perm h fun c hc => hu.child hc

/-! ### Subtrees -/

theorem infix_flatMap {α β : Type} {f : α → List β} {x : α} {l : List α} (h : x ∈ l) : f x <:+: l.flatMap f := by
  obtain ⟨s, t, rfl⟩ := List.append_of_mem h
  rw [List.flatMap_append, List.flatMap_cons]
  exact ⟨s.flatMap f, t.flatMap f, by rw [List.append_assoc]⟩

/-- A subtree is written out as a contiguous block. -/
theorem prints_sub {n m : Node} {w : List Token} (h : Prints b n w) (hm : m ∈ nodes n) :
    ∃ w', Prints b m w' ∧ w' <:+: w := by
  refine Prints.rec (motive_1 := fun n w _ => ∀ m ∈ nodes n, ∃ w', Prints b m w' ∧ w' <:+: w)
    (motive_2 := fun n s w _ => ∀ k, s = .child k → ∀ m ∈ (childrenAt n k).flatMap nodes,
      ∃ w', Prints b m w' ∧ w' <:+: w)
    (motive_3 := fun ns w _ => ∀ m ∈ ns.flatMap nodes, ∃ w', Prints b m w' ∧ w' <:+: w) ?_ ?_ ?_ ?_ ?_ h m hm
  · intro n parts all held order ih m hm
    rw [nodes_eq] at hm
    rcases List.mem_cons.1 hm with rfl | hm
    · exact ⟨_, .node m parts all held order, List.infix_refl _⟩
    · obtain ⟨e, he, hm⟩ := List.mem_flatMap.1 hm
      have hne : e.2.2 ≠ [] := by intro h0; rw [h0] at hm; cases hm
      have hs := all.mem_iff.2 (mem_slots_child he hne)
      obtain ⟨p, hp, h1⟩ := List.mem_map.1 hs
      obtain ⟨w', h2, h3⟩ := ih p hp e.1 h1 m (by
        obtain ⟨c, hc, hm⟩ := List.mem_flatMap.1 hm
        refine List.mem_flatMap.2 ⟨c, ?_, hm⟩
        rw [childrenAt_ents]
        refine List.mem_flatMap.2 ⟨e, he, ?_⟩
        rw [if_pos rfl]
        exact hc)
      exact ⟨w', h2, h3.trans (infix_flatMap hp)⟩
  · intro n t h k hk; cases hk
  · intro n k w _ ih k' hk
    cases hk
    exact ih
  · intro m hm; cases hm
  · intro n ns w w' _ _ ih1 ih2 m hm
    rw [List.flatMap_cons] at hm
    rcases List.mem_append.1 hm with hm | hm
    · obtain ⟨u, h1, h2⟩ := ih1 m hm
      exact ⟨u, h1, h2.trans ⟨[], w', rfl⟩⟩
    · obtain ⟨u, h1, h2⟩ := ih2 m hm
      exact ⟨u, h1, h2.trans ⟨w, [], by rw [List.append_nil]⟩⟩

theorem printsAll_sub : ∀ {ns : List Node} {w : List Token}, PrintsAll b ns w → ∀ {n : Node}, n ∈ ns →
    ∃ w', Prints b n w' ∧ w' <:+: w
  | _, _, .nil, _, h => by cases h
  | _, _, .cons (w := w) (w' := w') h t, m, hm => by
    rcases List.mem_cons.1 hm with rfl | hm
    · exact ⟨w, h, [], w', rfl⟩
    · obtain ⟨u, h1, h2⟩ := printsAll_sub t hm
      exact ⟨u, h1, h2.trans ⟨w, [], by rw [List.append_nil]⟩⟩

/-- Trees in a row are written out in a row. -/
theorem printsAll_pairwise {R : Token → Token → Prop} : ∀ {ns : List Node} {w : List Token},
    PrintsAll b ns w → (∀ n ∈ ns, Uniq n) → w.Pairwise R →
    ns.Pairwise fun n m => ∀ x ∈ tokensOf n, ∀ y ∈ tokensOf m, R x y
  | _, _, .nil, _, _ => .nil
  | _, _, .cons (n := n) h t, hu, hw => by
    obtain ⟨h1, h2, h3⟩ := List.pairwise_append.1 hw
    have hu' : ∀ m ∈ _, Uniq m := fun m hm => hu m (List.mem_cons_of_mem _ hm)
    refine .cons ?_ (printsAll_pairwise t hu' h2)
    intro m hm x hx y hy
    refine h3 x ((prints_perm h (hu n List.mem_cons_self)).mem_iff.2 hx) y ?_
    exact (printsAll_perm t hu').mem_iff.2 (List.mem_flatMap.2 ⟨m, hm, hy⟩)

/-- The tokens of a part. -/
theorem part_of {n : Node} {parts : List (Slot × List Token)} (all : (parts.map Prod.fst).Perm (slots n))
    (held : ∀ p ∈ parts, Held b n p.1 p.2) (hu : Uniq n) {s : Slot} {x : Token} (hx : x ∈ partTokens n s) :
    ∃ p ∈ parts, p.1 = s ∧ x ∈ p.2 := by
  have hs : s ∈ slots n := by
    cases s with
    | token =>
      cases ht : n.tok with
      | none => rw [partTokens, ht] at hx; cases hx
      | some t => unfold slots; rw [ht]; exact List.mem_append_left _ List.mem_cons_self
    | child k =>
      obtain ⟨c, hc, _⟩ := List.mem_flatMap.1 hx
      rw [childrenAt_ents] at hc
      obtain ⟨e, he, hc⟩ := List.mem_flatMap.1 hc
      split at hc
      · next h =>
        rw [← h]
        exact mem_slots_child he (by intro h0; rw [h0] at hc; cases hc)
      · cases hc
  obtain ⟨p, hp, h1⟩ := List.mem_map.1 (all.mem_iff.2 hs)
  refine ⟨p, hp, h1, ?_⟩
  have := held_perm (held p hp) hu
  rw [h1] at this
  exact this.mem_iff.2 hx

theorem pairwise_flatMap {α β : Type} {f : α → List β} {R : β → β → Prop} {l : List α} (h : (l.flatMap f).Pairwise R) :
    l.Pairwise fun p q => ∀ x ∈ f p, ∀ y ∈ f q, R x y := by
  induction l with
  | nil => exact .nil
  | cons a l ih =>
    rw [List.flatMap_cons] at h
    obtain ⟨_, h2, h3⟩ := List.pairwise_append.1 h
    refine .cons ?_ (ih h2)
    intro q hq x hx y hy
    exact h3 x hx y (List.mem_flatMap.2 ⟨q, hq, hy⟩)

theorem pairwise_two {α : Type} {R : α → α → Prop} {l : List α} (h : l.Pairwise R) {p q : α} (hp : p ∈ l) (hq : q ∈ l)
    (hne : p ≠ q) : R p q ∨ R q p := by
  induction h with
  | nil => cases hp
  | cons h _ ih =>
    rcases List.mem_cons.1 hp with hp1 | hp1 <;> rcases List.mem_cons.1 hq with hq1 | hq1
    · exact absurd (hp1.trans hq1.symm) hne
    · exact .inl (hp1 ▸ h q hq1)
    · exact .inr (hq1 ▸ h p hp1)
    · exact ih hp1 hq1

/-- Parts of a node stand in order. -/
theorem prints_parts {R : Token → Token → Prop} {n : Node} {w : List Token} (h : Prints b n w) (hu : Uniq n)
    (hw : w.Pairwise R) {s t : Slot} (hb : b n.ty s t) (hne : s ≠ t) {x y : Token} (hx : x ∈ partTokens n s)
    (hy : y ∈ partTokens n t) : R x y := by
  cases h with
  | node _ parts all held order =>
    obtain ⟨p, hp, rfl, hx'⟩ := part_of all held hu hx
    obtain ⟨q, hq, rfl, hy'⟩ := part_of all held hu hy
    have hpq : p ≠ q := by rintro rfl; exact hne rfl
    rcases pairwise_two (List.Pairwise.and order (pairwise_flatMap hw)) hp hq hpq with h | h
    · exact h.2 x hx' y hy'
    · exact absurd hb h.1

/-- The elements of an array stand in order. -/
theorem prints_array {R : Token → Token → Prop} {n : Node} {w : List Token} (h : Prints b n w) (hu : Uniq n)
    (hw : w.Pairwise R) (k : Key) :
    (childrenAt n k).Pairwise fun c d => ∀ x ∈ tokensOf c, ∀ y ∈ tokensOf d, R x y := by
  cases h with
  | node _ parts all held order =>
    by_cases hc : childrenAt n k = []
    · rw [hc]; exact .nil
    · obtain ⟨c, hc⟩ := List.exists_mem_of_ne_nil _ hc
      rw [childrenAt_ents] at hc
      obtain ⟨e, he, hc'⟩ := List.mem_flatMap.1 hc
      split at hc'
      · next hk =>
        subst hk
        have hs := all.mem_iff.2 (mem_slots_child he (by intro h0; rw [h0] at hc'; cases hc'))
        obtain ⟨p, hp, h1⟩ := List.mem_map.1 hs
        have h2 := held p hp
        rw [h1] at h2
        cases h2 with
        | child h2 =>
          exact printsAll_pairwise h2 (fun c hc => hu.child hc) (hw.sublist (infix_flatMap hp).sublist)
      · cases hc'

/-- A node of a subtree is a node of the tree. -/
theorem nodes_trans {n m k : Node} (hm : m ∈ nodes n) (hk : k ∈ nodes m) : k ∈ nodes n := by
  refine Node.rec (motive_1 := fun n => ∀ m ∈ nodes n, ∀ k ∈ nodes m, k ∈ nodes n)
    (motive_2 := fun ks => ∀ m ∈ kidsNodes ks, ∀ k ∈ nodes m, k ∈ kidsNodes ks)
    (motive_3 := fun ns => ∀ m ∈ listNodes ns, ∀ k ∈ nodes m, k ∈ listNodes ns) ?_ ?_ ?_ ?_ ?_ ?_ n m hm k hk
  · intro t ty ks ih m hm k hk
    rcases List.mem_cons.1 hm with rfl | hm
    · exact hk
    · exact List.mem_cons_of_mem _ (ih m hm k hk)
  · intro m hm; cases hm
  · intro key c r ih1 ih2 m hm k hk
    rcases List.mem_append.1 hm with hm | hm
    · exact List.mem_append_left _ (ih1 m hm k hk)
    · exact List.mem_append_right _ (ih2 m hm k hk)
  · intro key c r ih1 ih2 m hm k hk
    rcases List.mem_append.1 hm with hm | hm
    · exact List.mem_append_left _ (ih1 m hm k hk)
    · exact List.mem_append_right _ (ih2 m hm k hk)
  · intro m hm; cases hm
  · intro c r ih1 ih2 m hm k hk
    rcases List.mem_append.1 hm with hm | hm
    · exact List.mem_append_left _ (ih1 m hm k hk)
    · exact List.mem_append_right _ (ih2 m hm k hk)

end Verif.OI
