import Verif.Analysis.Order
import Verif.Spec.Order
import Verif.Proofs.Ops
/-! Segments of nodes and the tokens they stand for. -/
namespace Verif.OI
open Core Spec

/-- Code of a slot. -/
def code : Slot → Nat
  | .token => SELF
  | .child k => k.ctorIdx

/-- The order that the rules demand. -/
def Must (ru : Rules) (ty : NodeType) (a b : Slot) : Prop :=
  ∃ p ∈ ru ty, p.1 = code a ∧ Nat.testBit p.2 (code b) = true

/-- Slots with the tokens they stand for. -/
abbrev Parts := List (Slot × List Token)

/-- The tokens. -/
def word (p : Parts) : List Token := p.flatMap Prod.snd

/-- No slot stands after one it must precede. -/
def Sorted (ru : Rules) (ty : NodeType) (p : Parts) : Prop :=
  p.Pairwise fun a b => ¬ Must ru ty b.1 a.1

/-- Description of a segment and its parts. -/
abbrev DP := Desc × Parts

/-- The segments are those of a node. -/
structure NodeSegs (ru : Rules) (n : Node) (gs : List DP) : Prop where
  keys : n.kids.keys.Nodup
  perm : ((gs.flatMap Prod.snd).map Prod.fst).Perm (slots n)
  held : ∀ p ∈ gs.flatMap Prod.snd, Held (Must ru) n p.1 p.2
  segs : ∀ g ∈ gs, ∃ as m, g.1 = .node as ∧ slotsOf n.ty as = some m ∧
    (∀ p ∈ g.2, Nat.testBit m (code p.1) = true) ∧ Sorted ru n.ty g.2

/-- A whole node, of one of the given types, and its tokens. -/
def Whole (ru : Rules) : Option Alts → Node → List Token → Prop
  | none, n, w => Prints (Must ru) n w
  | some as, n, w => ∃ p, NodeSegs ru n [(.node as, p)] ∧ word p = w

/-- The elements of a vector and their tokens. -/
def VecOk (ru : Rules) (as : Option Alts) (ns : List Node) (w : List Token) : Prop :=
  ∃ ws, List.Forall₂ (Whole ru as) ns ws ∧ w = ws.flatten

/-- What the segments of a variable say about its value. -/
inductive SegsOk (ru : Rules) : Val → List DP → Prop
  | nil (v : Val) : SegsOk ru v []
  | node {n : Node} {gs : List DP} (h : NodeSegs ru n gs) : SegsOk ru (.node n) gs
  | any {n : Node} {p : Parts} (h : Prints (Must ru) n (word p)) : SegsOk ru (.node n) [(.any, p)]
  | vec {ns : List Node} {o : Bool} {as : Option Alts} {p : Parts} (h : VecOk ru as ns (word p))
      (h1 : o = true → ns.length = 1) : SegsOk ru (.vec ns) [(.vec o as, p)]

variable {ru : Rules} {toks : List Token}

/-! ### Masks and rules -/

theorem key_lt_self : ∀ k ∈ Key.all, k.ctorIdx < SELF := by decide +kernel

theorem code_inj {a b : Slot} (h : code a = code b) : a = b := by
  cases a <;> cases b
  · rfl
  · next k => exact absurd h (Nat.ne_of_gt (key_lt_self k (AI.mem_key_all k)))
  · next k => exact absurd h (Nat.ne_of_lt (key_lt_self k (AI.mem_key_all k)))
  · next k l => rw [AI.key_inj h]

theorem crossOk_spec {ty : NodeType} {m m' : AI.Mask} (h : crossOk ru ty m m' = true) {a b : Slot}
    (ha : Nat.testBit m (code a) = true) (hb : Nat.testBit m' (code b) = true) : ¬ Must ru ty b a := by
  rintro ⟨p, hp, h1, h2⟩
  have := List.all_eq_true.1 h p hp
  simp only [Bool.or_eq_true, Bool.not_eq_true', AI.Mask.has] at this
  rcases this with h3 | h3
  · rw [h1, hb] at h3; cases h3
  · have h4 := Nat.eq_of_beq_eq_true h3
    have h5 : Nat.testBit (p.2 &&& m) (code a) = true := by rw [Nat.testBit_and, h2, ha]; rfl
    rw [h4] at h5
    simp at h5

theorem laterOf_spec {b i : Nat} : ∀ {l : List (Nat × AI.Mask)}, Nat.testBit (laterOf b l) i = true →
    ∃ p ∈ l, p.1 = b ∧ Nat.testBit p.2 i = true
  | [], h => by simp [laterOf] at h
  | p :: r, h => by
    unfold laterOf at h
    split at h
    · next hb => exact ⟨p, List.mem_cons_self, Nat.eq_of_beq_eq_true hb, h⟩
    · obtain ⟨q, hq, h1⟩ := laterOf_spec h
      exact ⟨q, List.mem_cons_of_mem _ hq, h1⟩

theorem convOk_spec {ty nt : NodeType} {m : AI.Mask} (h : convOk ru ty nt m = true) {a b : Slot}
    (ha : Nat.testBit m (code a) = true) (hb : Nat.testBit m (code b) = true) (hm : Must ru nt a b) :
    Must ru ty a b := by
  obtain ⟨p, hp, h1, h2⟩ := hm
  have := List.all_eq_true.1 h p hp
  simp only [Bool.or_eq_true, Bool.not_eq_true', AI.Mask.has] at this
  rcases this with h3 | h3
  · rw [h1, ha] at h3; cases h3
  · have h5 : Nat.testBit (p.2 &&& m) (code b) = true := by rw [Nat.testBit_and, h2, hb]; rfl
    have h6 := AI.Mask.le_has h3 h5
    obtain ⟨q, hq, h7, h8⟩ := laterOf_spec h6
    exact ⟨q, hq, by rw [h7, h1], h8⟩

theorem slotsOf_cons {ty t : NodeType} {m : AI.Mask} {r : Alts} :
    slotsOf ty ((t, m) :: r) = if t = ty then some m else slotsOf ty r := by
  rw [slotsOf]
  simp only [AI.tyEq_iff]

theorem slotsOf_mem {ty : NodeType} {m : AI.Mask} : ∀ {as : Alts}, slotsOf ty as = some m → (ty, m) ∈ as
  | [], h => by cases h
  | (t, m') :: r, h => by
    rw [slotsOf_cons] at h
    split at h
    · next ht => cases h; rw [ht]; exact List.mem_cons_self
    · exact List.mem_cons_of_mem _ (slotsOf_mem h)

theorem altsLe_spec {as bs : Alts} (h : altsLe as bs = true) {ty : NodeType} {m : AI.Mask}
    (hm : slotsOf ty as = some m) : ∃ m', slotsOf ty bs = some m' ∧ AI.Mask.le m m' = true := by
  have := List.all_eq_true.1 h _ (slotsOf_mem hm)
  dsimp only at this
  split at this
  · cases this
  · next m' hm' => exact ⟨m', hm', this⟩

theorem Sorted.conv {ty nt : NodeType} {m : AI.Mask} {p : Parts} (h : Sorted ru ty p)
    (hc : convOk ru ty nt m = true) (hm : ∀ q ∈ p, Nat.testBit m (code q.1) = true) : Sorted ru nt p := by
  refine List.Pairwise.imp_of_mem ?_ h
  intro a b ha hb h1 h2
  exact h1 (convOk_spec hc (hm b hb) (hm a ha) h2)

theorem Sorted.append {ty : NodeType} {m m' : AI.Mask} {p q : Parts} (hp : Sorted ru ty p)
    (hq : Sorted ru ty q) (hc : crossOk ru ty m m' = true) (hm : ∀ a ∈ p, Nat.testBit m (code a.1) = true)
    (hm' : ∀ a ∈ q, Nat.testBit m' (code a.1) = true) : Sorted ru ty (p ++ q) :=
  List.pairwise_append.2 ⟨hp, hq, fun a ha b hb => crossOk_spec hc (hm a ha) (hm' b hb)⟩

/-! ### Segments of a node -/

theorem flatMap_perm {α β : Type} {l l' : List α} (h : l.Perm l') (f : α → List β) :
    (l.flatMap f).Perm (l'.flatMap f) := h.flatMap_right f

theorem NodeSegs.of_perm {n : Node} {gs gs' : List DP} (h : NodeSegs ru n gs) (hp : gs.Perm gs') :
    NodeSegs ru n gs' where
  keys := h.keys
  perm := ((flatMap_perm hp _).map _).symm.trans h.perm
  held := fun p hm => h.held p ((flatMap_perm hp _).mem_iff.2 hm)
  segs := fun g hg => h.segs g (hp.mem_iff.2 hg)

theorem SegsOk.of_perm {v : Val} {gs gs' : List DP} (h : SegsOk ru v gs) (hp : gs.Perm gs') :
    SegsOk ru v gs' := by
  cases h with
  | nil => rw [List.nil_perm.1 hp]; exact .nil v
  | node h => exact .node (h.of_perm hp)
  | any h => rw [← List.singleton_perm.1 hp]; exact .any h
  | vec h h1 => rw [← List.singleton_perm.1 hp]; exact .vec h h1

theorem NodeSegs.prints {n : Node} {d : Desc} {p : Parts} (h : NodeSegs ru n [(d, p)]) :
    Prints (Must ru) n (word p) := by
  obtain ⟨as, m, _, _, _, hs⟩ := h.segs _ (List.mem_singleton_self _)
  have h1 := h.perm
  have h2 := h.held
  rw [List.flatMap_singleton] at h1 h2
  exact .node n p h1 h2 hs

theorem Whole.prints {as : Option Alts} {n : Node} {w : List Token} (h : Whole ru as n w) :
    Prints (Must ru) n w := by
  cases as with
  | none => exact h
  | some as =>
    obtain ⟨p, hp, rfl⟩ := h
    exact hp.prints

theorem VecOk.prints {as : Option Alts} {ns : List Node} {w : List Token} (h : VecOk ru as ns w) :
    PrintsAll (Must ru) ns w := by
  obtain ⟨ws, h1, rfl⟩ := h
  induction h1 with
  | nil => exact .nil
  | cons h _ ih => exact .cons h.prints ih

theorem NodeSegs.mono1 {n : Node} {as bs : Alts} {p : Parts} {r : List DP}
    (h : NodeSegs ru n ((.node as, p) :: r)) (hle : altsLe as bs = true) :
    NodeSegs ru n ((.node bs, p) :: r) where
  keys := h.keys
  perm := h.perm
  held := h.held
  segs := by
    intro g hg
    rcases List.mem_cons.1 hg with rfl | hg
    · obtain ⟨as', m, h1, h2, h3, h4⟩ := h.segs _ List.mem_cons_self
      cases h1
      obtain ⟨m', h5, h6⟩ := altsLe_spec hle h2
      exact ⟨bs, m', rfl, h5, fun p hp => AI.Mask.le_has h6 (h3 p hp), h4⟩
    · exact h.segs g (List.mem_cons_of_mem _ hg)

theorem Whole.mono {as bs : Alts} {n : Node} {w : List Token} (h : Whole ru (some as) n w)
    (hle : altsLe as bs = true) : Whole ru (some bs) n w := by
  obtain ⟨p, hp, rfl⟩ := h
  exact ⟨p, hp.mono1 hle, rfl⟩

theorem VecOk.mono {as bs : Alts} {ns : List Node} {w : List Token} (h : VecOk ru (some as) ns w)
    (hle : altsLe as bs = true) : VecOk ru (some bs) ns w := by
  obtain ⟨ws, h1, rfl⟩ := h
  exact ⟨ws, h1.imp fun _ _ h => h.mono hle, rfl⟩

theorem VecOk.any {as : Option Alts} {ns : List Node} {w : List Token} (h : VecOk ru as ns w) :
    VecOk ru none ns w := by
  obtain ⟨ws, h1, rfl⟩ := h
  exact ⟨ws, h1.imp fun _ _ h => h.prints, rfl⟩

/-- Inclusion of descriptions, one by one. -/
theorem NodeSegs.mono {n : Node} {gs gs' : List DP} (h : NodeSegs ru n gs)
    (hf : List.Forall₂ (fun g g' : DP => g'.2 = g.2 ∧ (∀ as, g.1 = .node as → ∃ bs, g'.1 = .node bs ∧
      altsLe as bs = true)) gs gs') : NodeSegs ru n gs' := by
  have he : gs'.map Prod.snd = gs.map Prod.snd := by
    clear h
    induction hf with
    | nil => rfl
    | cons h _ ih => rw [List.map_cons, List.map_cons, ih, h.1]
  have hfm : gs'.flatMap Prod.snd = gs.flatMap Prod.snd := by
    rw [List.flatMap_def, List.flatMap_def, he]
  refine ⟨h.keys, by rw [hfm]; exact h.perm, by rw [hfm]; exact h.held, ?_⟩
  have hs := h.segs
  clear h he hfm
  induction hf with
  | nil => intro g hg; cases hg
  | @cons g g' r r' h _ ih =>
    intro x hx
    rcases List.mem_cons.1 hx with rfl | hx
    · obtain ⟨as', m, h1, h2, h3, h4⟩ := hs _ List.mem_cons_self
      obtain ⟨bs, h5, h6⟩ := h.2 _ h1
      obtain ⟨m', h7, h8⟩ := altsLe_spec h6 h2
      rw [h.1]
      exact ⟨bs, m', h5, h7, fun p hp => AI.Mask.le_has h8 (h3 p hp), h4⟩
    · exact ih (fun g hg => hs g (List.mem_cons_of_mem _ hg)) x hx

/-- Inclusion of segments, one by one. -/
theorem SegsOk.mono {v : Val} {gs gs' : List DP} (h : SegsOk ru v gs)
    (hf : List.Forall₂ (fun g g' : DP => g'.2 = g.2 ∧ segLe gs.length g.1 g'.1 = true) gs gs') :
    SegsOk ru v gs' := by
  cases h with
  | nil => cases hf; exact .nil v
  | node h =>
    next n =>
    by_cases hany : ∃ g' ∈ gs', g'.1 = .any
    · obtain ⟨g', hg', ha⟩ := hany
      have hl : gs.length = 1 := by
        have hs := h.segs
        have : ∃ g ∈ gs, ∃ as, g.1 = .node as ∧ segLe gs.length g.1 g'.1 = true := by
          obtain ⟨i, hi, rfl⟩ := List.getElem_of_mem hg'
          have hi' : i < gs.length := by rw [hf.length_eq]; exact hi
          have := (List.forall₂_iff_get.1 hf).2 i hi' hi
          obtain ⟨as, _, h1, _⟩ := hs _ (List.getElem_mem hi')
          exact ⟨_, List.getElem_mem hi', as, h1, this.2⟩
        obtain ⟨g, _, as, h1, h2⟩ := this
        rw [h1, ha] at h2
        simpa [segLe, Desc.le] using h2
      obtain ⟨g, rfl⟩ := List.length_eq_one_iff.1 hl
      obtain ⟨d, p⟩ := g
      cases hf with
      | cons h1 h2 =>
        cases h2
        next e =>
        obtain ⟨d', q⟩ := e
        have : d' = .any := by
          rcases List.mem_singleton.1 hg' with rfl
          exact ha
        subst this
        have h3 := h1.1
        dsimp only at h3
        subst h3
        exact .any h.prints
    · refine .node (h.mono ?_)
      have hs := h.segs
      clear h
      generalize gs.length = k at hf
      induction hf with
      | nil => exact .nil
      | @cons g g' r r' h _ ih =>
        refine .cons ⟨h.1, ?_⟩ (ih (fun ⟨a, b, c⟩ => hany ⟨a, List.mem_cons_of_mem _ b, c⟩)
          fun g hg => hs g (List.mem_cons_of_mem _ hg))
        intro as has
        have h2 := h.2
        rw [has] at h2
        rcases hd : g'.1 with _ | bs | _
        · exact absurd ⟨g', List.mem_cons_self, hd⟩ hany
        · rw [hd] at h2
          exact ⟨bs, rfl, by simpa [segLe, Desc.le] using h2⟩
        · rw [hd] at h2
          simp [segLe, Desc.le] at h2
  | @any n p h =>
    cases hf with
    | cons h1 h2 =>
      cases h2
      next e =>
      obtain ⟨d', q⟩ := e
      obtain ⟨h3, h4⟩ := h1
      dsimp only at h3 h4
      subst h3
      cases d' <;> simp [segLe, Desc.le] at h4
      exact .any h
  | @vec ns o as p h h1' =>
    cases hf with
    | cons h1 h2 =>
      cases h2
      next e =>
      obtain ⟨d', q⟩ := e
      obtain ⟨h3, h4⟩ := h1
      dsimp only at h3 h4
      subst h3
      rcases d' with _ | _ | ⟨o', as'⟩
      · cases as <;> simp [segLe, Desc.le] at h4
      · cases as <;> simp [segLe, Desc.le] at h4
      · cases as' with
        | none =>
          refine .vec h.any ?_
          intro ho
          have : o = true := by cases as <;> simpa [segLe, Desc.le, ho] using h4
          exact h1' this
        | some bs =>
          cases as with
          | none => simp [segLe, Desc.le] at h4
          | some as =>
            simp only [segLe, Desc.le, Bool.and_true, Bool.and_eq_true, Bool.or_eq_true,
              Bool.not_eq_true'] at h4
            refine .vec (h.mono h4.2) ?_
            intro ho
            rcases h4.1 with h5 | h5
            · rw [ho] at h5; cases h5
            · exact h1' h5

/-! ### Operations on nodes -/

/-- Slots of entries. -/
def entSlots (l : List (Key × Bool × List Node)) : List Slot :=
  (l.filter fun e => !e.2.2.isEmpty).map fun e => .child e.1

theorem slots_ents (n : Node) :
    slots n = (if n.tok.isSome then [.token] else []) ++ entSlots (ents n.kids) := by
  unfold slots entSlots
  rw [children_ents, List.filter_map, List.map_map]
  rfl

theorem mem_entSlots {l : List (Key × Bool × List Node)} {s : Slot} (h : s ∈ entSlots l) :
    ∃ k ∈ l.map Prod.fst, s = .child k := by
  obtain ⟨e, he, rfl⟩ := List.mem_map.1 h
  exact ⟨e.1, List.mem_map_of_mem (List.mem_of_mem_filter he), rfl⟩

theorem entSlots_cons (e : Key × Bool × List Node) (l : List (Key × Bool × List Node)) :
    entSlots (e :: l) = (if e.2.2 = [] then [] else [.child e.1]) ++ entSlots l := by
  unfold entSlots
  obtain ⟨k, b, c⟩ := e
  cases c <;> simp

theorem entSlots_upd {k : Key} {v : Bool × List Node} : ∀ {l : List (Key × Bool × List Node)},
    (l.map Prod.fst).Nodup → (entSlots (upd k v l)).Perm
      ((if v.2 = [] then [] else [.child k]) ++ (entSlots l).filter fun s => s ≠ .child k)
  | [], _ => by
    unfold upd
    rw [entSlots_cons]
    simp [entSlots]
  | e :: l, h => by
    rw [List.map_cons, List.nodup_cons] at h
    unfold upd
    split
    · next hk =>
      subst hk
      have h1 : (entSlots l).filter (fun s => s ≠ .child e.1) = entSlots l := by
        refine List.filter_eq_self.2 ?_
        intro s hs
        obtain ⟨k', hk', rfl⟩ := mem_entSlots hs
        have : k' ≠ e.1 := by rintro rfl; exact h.1 hk'
        simpa using this
      have h2 : (entSlots (e :: l)).filter (fun s => s ≠ .child e.1) = entSlots l := by
        rw [entSlots_cons, List.filter_append, h1]
        split <;> simp
      rw [h2, entSlots_cons]
    · next hk =>
      rw [entSlots_cons, entSlots_cons, List.filter_append]
      have h1 : (if e.2.2 = [] then [] else [Slot.child e.1]).filter (fun s => s ≠ .child k) =
          (if e.2.2 = [] then [] else [Slot.child e.1]) := by
        split
        · rfl
        · simp [Ne.symm hk]
      rw [h1, ← List.append_assoc]
      refine (List.Perm.append_left _ (entSlots_upd h.2)).trans ?_
      rw [← List.append_assoc]
      exact List.Perm.append_right _ List.perm_append_comm

theorem at_upd {k : Key} {v : Bool × List Node} : ∀ {l : List (Key × Bool × List Node)},
    (l.map Prod.fst).Nodup → ((upd k v l).flatMap fun e => if e.1 = k then e.2.2 else []) = v.2
  | [], _ => by simp [upd]
  | e :: l, h => by
    rw [List.map_cons, List.nodup_cons] at h
    unfold upd
    split
    · next hk =>
      have : (l.flatMap fun e => if e.1 = k then e.2.2 else []) = [] := by
        rw [List.flatMap_eq_nil_iff]
        intro x hx
        rw [if_neg]
        rintro rfl
        exact h.1 (hk ▸ List.mem_map_of_mem hx)
      rw [List.flatMap_cons, this]
      simp
    · next hk =>
      rw [List.flatMap_cons, at_upd h.2, if_neg (Ne.symm hk)]
      rfl

/-- `n'` is `n` with other contents `cs` under the key `k`. -/
structure Pushed (n n' : Node) (k : Key) (cs : List Node) : Prop where
  ty : n'.ty = n.ty
  tok : n'.tok = n.tok
  keys : n.kids.keys.Nodup → n'.kids.keys.Nodup
  slots : n.kids.keys.Nodup →
    (slots n').Perm ((if cs = [] then [] else [.child k]) ++ (slots n).filter fun s => s ≠ .child k)
  at_ : n.kids.keys.Nodup → childrenAt n' k = cs
  other : ∀ k', k' ≠ k → childrenAt n' k' = childrenAt n k'

theorem pushed_of_ents {n n' : Node} {k : Key} {v : Bool × List Node} (hty : n'.ty = n.ty)
    (htok : n'.tok = n.tok) (hk : n.kids.keys.Nodup → n'.kids.keys.Nodup)
    (h : ents n'.kids = upd k v (ents n.kids)) : Pushed n n' k v.2 where
  ty := hty
  tok := htok
  keys := hk
  slots := by
    intro hn
    rw [keys_ents] at hn
    rw [slots_ents, slots_ents, h, htok, List.filter_append]
    have h1 : (if n.tok.isSome then [Slot.token] else []).filter (fun s => s ≠ .child k) =
        (if n.tok.isSome then [Slot.token] else []) := by split <;> simp
    rw [h1, ← List.append_assoc]
    refine (List.Perm.append_left _ (entSlots_upd hn)).trans ?_
    rw [← List.append_assoc]
    exact List.Perm.append_right _ List.perm_append_comm
  at_ := by
    intro hn
    rw [keys_ents] at hn
    rw [childrenAt_ents, h, at_upd hn]
  other := by
    intro k' hk'
    rw [childrenAt_ents, childrenAt_ents, h, childrenAt_upd hk']

theorem pushed_node (n : Node) (k : Key) (c : Node) : Pushed n (n.pushNode k c) k [c] :=
  pushed_of_ents (v := (false, [c])) rfl rfl (keys_insertOne_nodup n.kids k c) (ents_pushNode n k c)

theorem pushed_vec (n : Node) (k : Key) (cs : List Node) : Pushed n (n.pushVec k cs) k cs :=
  pushed_of_ents (v := (true, cs)) rfl rfl (keys_insertMany_nodup n.kids k (Nodes.ofList cs))
    (ents_pushVec n k cs)

theorem Pushed.held {n n' : Node} {k : Key} {cs : List Node} (h : Pushed n n' k cs) {s : Slot} {w : List Token}
    (hs : s ≠ .child k) (hh : Held (Must ru) n s w) : Held (Must ru) n' s w := by
  cases hh with
  | token ht => exact .token (by rw [h.tok]; exact ht)
  | @child _ k' _ hc =>
    refine .child ?_
    rw [h.other k' (by rintro rfl; exact hs rfl)]
    exact hc

theorem held_setType {n : Node} {nt : NodeType} {s : Slot} {w : List Token} (h : Held (Must ru) n s w) :
    Held (Must ru) (n.setType nt) s w := by
  cases h with
  | token ht => exact .token ht
  | child hc => exact .child hc

theorem slots_setType (n : Node) (nt : NodeType) : slots (n.setType nt) = slots n := rfl

theorem nodeSegs_empty (t : NodeType) : NodeSegs ru (Node.empty t) [] where
  keys := List.nodup_nil
  perm := List.Perm.refl _
  held := by intro p hp; cases hp
  segs := by intro g hg; cases hg

/-- Remove the parts of a key. -/
def clearDP (k : Key) (g : DP) : DP :=
  (match g.1 with
    | .node as => .node (clearAlts (AI.kbit k) as)
    | d => d, g.2.filter fun p => p.1 ≠ .child k)

theorem testBit_clear {m k : AI.Mask} {i : Nat} :
    Nat.testBit ((m ||| k) ^^^ k) i = (Nat.testBit m i && !Nat.testBit k i) := by
  rw [Nat.testBit_xor, Nat.testBit_or]
  cases Nat.testBit m i <;> cases Nat.testBit k i <;> rfl

theorem slotsOf_clear {ty : NodeType} {k : AI.Mask} : ∀ {as : Alts} {m : AI.Mask}, slotsOf ty as = some m →
    slotsOf ty (clearAlts k as) = some ((m ||| k) ^^^ k)
  | [], m, h => by cases h
  | (t, m') :: r, m, h => by
    rw [slotsOf_cons] at h
    unfold clearAlts
    rw [slotsOf_cons]
    split at h
    · next ht => cases h; rw [if_pos ht]
    · next ht => rw [if_neg ht]; exact slotsOf_clear h

theorem slotsOf_with {ty : NodeType} {k : AI.Mask} : ∀ {as : Alts} {m : AI.Mask}, slotsOf ty as = some m →
    slotsOf ty (withSlots k as) = some k
  | [], m, h => by cases h
  | (t, m') :: r, m, h => by
    rw [slotsOf_cons] at h
    unfold withSlots
    rw [slotsOf_cons]
    split at h
    · next ht => rw [if_pos ht]
    · next ht => rw [if_neg ht]; exact slotsOf_with h

theorem code_kbit {s : Slot} {k : Key} : Nat.testBit (AI.kbit k) (code s) = true ↔ s = .child k := by
  unfold AI.kbit
  rw [AI.testBit_bit]
  constructor
  · intro h
    exact (code_inj (a := .child k) (of_decide_eq_true h)).symm
  · rintro rfl; exact decide_eq_true rfl

theorem filter_flatMap_map {k : Key} (gs : List DP) :
    (gs.map (clearDP k)).flatMap Prod.snd = (gs.flatMap Prod.snd).filter fun p => p.1 ≠ .child k := by
  induction gs with
  | nil => rfl
  | cons g r ih =>
    rw [List.map_cons, List.flatMap_cons, List.flatMap_cons, List.filter_append, ih]
    rfl

theorem sorted_singleton {ty : NodeType} (p : Slot × List Token) : Sorted ru ty [p] :=
  List.pairwise_singleton _ _

/-- The segments after a push: those of the node without the key, and one for the key. -/
theorem NodeSegs.push {n n' : Node} {k : Key} {cs : List Node} {gs : List DP} (h : NodeSegs ru n gs)
    (hp : Pushed n n' k cs) {w : List Token} (hw : PrintsAll (Must ru) cs w) {ts : Alts} {m : AI.Mask}
    (hts : slotsOf n.ty ts = some m) :
    NodeSegs ru n' ((.node (withSlots (AI.kbit k) ts), if cs = [] then [] else [(.child k, w)]) ::
      gs.map (clearDP k)) where
  keys := hp.keys h.keys
  perm := by
    rw [List.flatMap_cons, filter_flatMap_map, List.map_append]
    refine List.Perm.trans ?_ (hp.slots h.keys).symm
    refine List.Perm.append ?_ ?_
    · split <;> exact List.Perm.refl _
    · have := List.Perm.filter (fun s => decide (s ≠ Slot.child k)) h.perm
      refine List.Perm.trans ?_ this
      rw [List.filter_map]
      exact List.Perm.refl _
  held := by
    intro p hm
    rw [List.flatMap_cons, filter_flatMap_map, List.mem_append] at hm
    rcases hm with hm | hm
    · split at hm
      · cases hm
      · rw [List.mem_singleton.1 hm]
        refine .child ?_
        rw [hp.at_ h.keys]
        exact hw
    · rw [List.mem_filter] at hm
      exact hp.held (of_decide_eq_true hm.2) (h.held p hm.1)
  segs := by
    intro g hg
    rw [hp.ty]
    rcases List.mem_cons.1 hg with rfl | hg
    · refine ⟨_, _, rfl, slotsOf_with hts, ?_, ?_⟩
      · intro p hp'
        dsimp only at hp'
        split at hp'
        · cases hp'
        · rw [List.mem_singleton.1 hp']
          exact code_kbit.2 rfl
      · dsimp only
        split
        · exact List.Pairwise.nil
        · exact sorted_singleton _
    · obtain ⟨g0, hg0, rfl⟩ := List.mem_map.1 hg
      obtain ⟨as, m, h1, h2, h3, h4⟩ := h.segs g0 hg0
      refine ⟨clearAlts (AI.kbit k) as, _, ?_, slotsOf_clear h2, ?_, ?_⟩
      · unfold clearDP; rw [h1]
      · intro p hp'
        obtain ⟨hp1, hp2⟩ := List.mem_filter.1 hp'
        rw [testBit_clear, h3 p hp1, Bool.true_and, Bool.not_eq_true']
        rw [Bool.eq_false_iff]
        intro hb
        exact (of_decide_eq_true hp2) (code_kbit.1 hb)
      · exact List.Pairwise.filter _ h4

/-- The same for the empty vector, where there is no segment for the key. -/
theorem NodeSegs.pushNil {n n' : Node} {k : Key} {gs : List DP} (h : NodeSegs ru n gs)
    (hp : Pushed n n' k []) : NodeSegs ru n' (gs.map (clearDP k)) where
  keys := hp.keys h.keys
  perm := by
    rw [filter_flatMap_map]
    refine List.Perm.trans ?_ (hp.slots h.keys).symm
    rw [if_pos rfl, List.nil_append]
    have := List.Perm.filter (fun s => decide (s ≠ Slot.child k)) h.perm
    refine List.Perm.trans ?_ this
    rw [List.filter_map]
    exact List.Perm.refl _
  held := by
    intro p hm
    rw [filter_flatMap_map, List.mem_filter] at hm
    exact hp.held (of_decide_eq_true hm.2) (h.held p hm.1)
  segs := by
    intro g hg
    rw [hp.ty]
    obtain ⟨g0, hg0, rfl⟩ := List.mem_map.1 hg
    obtain ⟨as, m, h1, h2, h3, h4⟩ := h.segs g0 hg0
    refine ⟨clearAlts (AI.kbit k) as, _, ?_, slotsOf_clear h2, ?_, ?_⟩
    · unfold clearDP; rw [h1]
    · intro p hp'
      obtain ⟨hp1, hp2⟩ := List.mem_filter.1 hp'
      rw [testBit_clear, h3 p hp1, Bool.true_and, Bool.not_eq_true']
      rw [Bool.eq_false_iff]
      intro hb
      exact (of_decide_eq_true hp2) (code_kbit.1 hb)
    · exact List.Pairwise.filter _ h4

/-! ### Changing the type -/

theorem retype_spec {nt : NodeType} : ∀ {as : Alts} {m : AI.Mask}, retype ru nt as = .ok m →
    ∀ {ty : NodeType} {m0 : AI.Mask}, slotsOf ty as = some m0 →
      convOk ru ty nt m0 = true ∧ ∀ i, Nat.testBit m0 i = true → Nat.testBit m i = true
  | [], _, _, _, _, h => by cases h
  | (t, m1) :: r, m, h, ty, m0, h0 => by
    unfold retype at h
    split at h
    · next hc =>
      split at h
      · cases h
      · next m' hm' =>
        cases h
        rw [slotsOf_cons] at h0
        split at h0
        · next ht =>
          cases h0
          rw [← ht]
          refine ⟨hc, fun i hi => ?_⟩
          rw [Nat.testBit_or, hi, Bool.true_or]
        · obtain ⟨h1, h2⟩ := retype_spec hm' h0
          refine ⟨h1, fun i hi => ?_⟩
          rw [Nat.testBit_or, h2 i hi, Bool.or_true]
    · cases h

/-- The segments after a change of the type. -/
theorem NodeSegs.setType {n : Node} {nt : NodeType} {gs gs' : List DP} (h : NodeSegs ru n gs)
    (hf : List.Forall₂ (fun g g' : DP => g'.2 = g.2 ∧ ∃ as m, g.1 = .node as ∧ retype ru nt as = .ok m ∧
      g'.1 = .node [(nt, m)]) gs gs') : NodeSegs ru (n.setType nt) gs' := by
  have he : gs'.map Prod.snd = gs.map Prod.snd := by
    clear h
    induction hf with
    | nil => rfl
    | cons h _ ih => rw [List.map_cons, List.map_cons, ih, h.1]
  have hfm : gs'.flatMap Prod.snd = gs.flatMap Prod.snd := by
    rw [List.flatMap_def, List.flatMap_def, he]
  refine ⟨h.keys, by rw [hfm]; exact h.perm, by rw [hfm]; exact fun p hp => held_setType (h.held p hp), ?_⟩
  have hs := h.segs
  clear h he hfm
  induction hf with
  | nil => intro g hg; cases hg
  | @cons g g' r r' h _ ih =>
    intro x hx
    rcases List.mem_cons.1 hx with rfl | hx
    · obtain ⟨as, m0, h1, h2, h3, h4⟩ := hs _ List.mem_cons_self
      obtain ⟨h5, as', m, h6, h7, h8⟩ := h
      rw [h1] at h6
      cases h6
      obtain ⟨h9, h10⟩ := retype_spec h7 h2
      rw [h5]
      refine ⟨_, m, h8, ?_, fun p hp => h10 _ (h3 p hp), h4.conv h9 h3⟩
      rw [slotsOf_cons, if_pos]
      rfl
    · exact ih (fun g hg => hs g (List.mem_cons_of_mem _ hg)) x hx

/-! ### Merging segments -/

theorem mergeAlts_spec : ∀ {as bs l : Alts}, mergeAlts ru as bs = .ok l →
    ∀ {ty : NodeType} {m : AI.Mask}, slotsOf ty as = some m →
      ∃ m', slotsOf ty bs = some m' ∧ crossOk ru ty m m' = true ∧ slotsOf ty l = some (m ||| m')
  | [], _, _, _, _, _, h => by cases h
  | (t, m1) :: r, bs, l, h, ty, m, h0 => by
    unfold mergeAlts at h
    split at h
    · cases h
    · next m' hm' =>
      split at h
      · next hc =>
        split at h
        · cases h
        · next l' hl' =>
          cases h
          rw [slotsOf_cons] at h0 ⊢
          split at h0
          · next ht =>
            cases h0
            subst ht
            exact ⟨m', hm', hc, by rw [if_pos rfl]⟩
          · next ht =>
            rw [if_neg ht]
            exact mergeAlts_spec hl' h0
      · cases h

theorem NodeSegs.merge {n : Node} {as bs l : Alts} {p q : Parts} {r : List DP}
    (h : NodeSegs ru n ((.node as, p) :: (.node bs, q) :: r)) (hm : mergeAlts ru as bs = .ok l) :
    NodeSegs ru n ((.node l, p ++ q) :: r) where
  keys := h.keys
  perm := by
    have := h.perm
    rw [List.flatMap_cons, List.flatMap_cons, ← List.append_assoc] at this
    rw [List.flatMap_cons]
    exact this
  held := by
    have := h.held
    rw [List.flatMap_cons, List.flatMap_cons, ← List.append_assoc] at this
    rw [List.flatMap_cons]
    exact this
  segs := by
    intro g hg
    rcases List.mem_cons.1 hg with rfl | hg
    · obtain ⟨as', m, h1, h2, h3, h4⟩ := h.segs _ List.mem_cons_self
      cases h1
      obtain ⟨bs', m', g1, g2, g3, g4⟩ := h.segs (.node bs, q) (List.mem_cons_of_mem _ List.mem_cons_self)
      cases g1
      obtain ⟨m'', k1, k2, k3⟩ := mergeAlts_spec hm h2
      rw [g2] at k1
      cases k1
      refine ⟨l, _, rfl, k3, ?_, h4.append g4 k2 h3 g3⟩
      intro x hx
      rw [Nat.testBit_or]
      rcases List.mem_append.1 hx with hx | hx
      · rw [h3 x hx, Bool.true_or]
      · rw [g3 x hx, Bool.or_true]
    · exact h.segs g (List.mem_cons_of_mem _ (List.mem_cons_of_mem _ hg))

theorem SegsOk.merge {v : Val} {as bs l : Alts} {p q : Parts} {r : List DP}
    (h : SegsOk ru v ((.node as, p) :: (.node bs, q) :: r)) (hm : mergeAlts ru as bs = .ok l) :
    SegsOk ru v ((.node l, p ++ q) :: r) := by
  cases h with
  | node h => exact .node (h.merge hm)

end Verif.OI
