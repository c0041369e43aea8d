import Verif.Spec.Json
import Verif.Proofs.Display
import Verif.Proofs.Masks
import Mathlib.Data.List.Perm.Basic
import Mathlib.Data.List.Nodup
/-! The serialiser yields a value that represents the tree, and such a value determines the tree. -/
namespace Verif
open Spec

theorem Key.name_inj {a b : Key} (h : a.name = b.name) : a = b := by
  rcases Nat.lt_trichotomy a.ctorIdx b.ctorIdx with hl | he | hl
  · have := Key.name_lt hl; rw [h] at this; exact absurd this (List.lt_irrefl _)
  · exact AI.key_inj he
  · have := Key.name_lt hl; rw [h] at this; exact absurd this (List.lt_irrefl _)

theorem NodeType.names_nodup : (NodeType.all.map NodeType.name).Nodup := by decide +kernel

theorem NodeType.name_inj {a b : NodeType} (h : a.name = b.name) : a = b :=
  List.inj_on_of_nodup_map NodeType.names_nodup (AI.mem_nodeType_all a) (AI.mem_nodeType_all b) h

namespace Ser

@[simp] theorem toList_ofList (l : List (Str × Json)) : (Fields.ofList l).toList = l := by
  induction l with
  | nil => rfl
  | cons a l ih => obtain ⟨s, j⟩ := a; simp [Fields.ofList, Fields.toList, ih]

theorem exactly_object {l l' : List (Str × Json)} (hp : l.Perm l') (hn : (l'.map Prod.fst).Nodup) :
    Exactly (object l) l' := ⟨_, rfl, by rw [toList_ofList]; exact hp, hn⟩

theorem isToken (t : Token) : IsToken t (token t) := exactly_object (List.Perm.refl _) (by simp)

theorem isOptToken (t : Option Token) : IsOptToken t (optToken t) := by
  cases t with
  | none => rfl
  | some t => exact isToken t

theorem kids_names (ord : Order) (ks : Kids) : ∀ (path : List Nat) (i : Nat),
    (kids ord path i ks).map Prod.fst = ks.keys.map Key.name := by
  refine Kids.rec (motive_1 := fun _ => True)
    (motive_2 := fun ks => ∀ (path : List Nat) (i : Nat), (kids ord path i ks).map Prod.fst = ks.keys.map Key.name)
    (motive_3 := fun _ => True) (fun _ _ _ _ => trivial) ?_ ?_ ?_ trivial (fun _ _ _ _ => trivial) ks
  · intro path i; rfl
  · intro k n r _ ih path i; simp [kids, Kids.keys, ih]
  · intro k n r _ ih path i; simp [kids, Kids.keys, ih]

theorem isTree {ord : Order} (ho : ord.Fair) (n : Node) : ∀ path, (∀ m ∈ Spec.nodes n, m.kids.keys.Nodup) →
    IsTree n (node ord path n) := by
  refine Node.rec
    (motive_1 := fun n => ∀ path, (∀ m ∈ Spec.nodes n, m.kids.keys.Nodup) → IsTree n (node ord path n))
    (motive_2 := fun ks => ∀ path i, (∀ m ∈ kidsNodes ks, m.kids.keys.Nodup) → IsKids ks (kids ord path i ks))
    (motive_3 := fun ns => ∀ path i, (∀ m ∈ listNodes ns, m.kids.keys.Nodup) → IsTrees ns (nodes ord path i ns))
    ?_ ?_ ?_ ?_ ?_ ?_ n
  · intro t ty ks ih path hu
    refine IsTree.node t ty ks _ _ _ _ (isOptToken t)
      (ih path 0 fun m hm => hu m (List.mem_cons_of_mem _ hm)) (exactly_object (ho _ _) ?_)
      (exactly_object (List.Perm.refl _) (by simp))
    rw [kids_names]
    exact List.Nodup.map (fun _ _ => Key.name_inj) (hu _ List.mem_cons_self)
  · intro path i _; exact .nil
  · intro k n r ihn ihr path i hu
    exact .one k n r _ _ _ (ihn _ fun m hm => hu m (List.mem_append_left _ hm))
      (exactly_object (List.Perm.refl _) (by simp)) (ihr _ _ fun m hm => hu m (List.mem_append_right _ hm))
  · intro k ns r ihn ihr path i hu
    exact .many k ns r _ _ _ (ihn _ _ fun m hm => hu m (List.mem_append_left _ hm))
      (exactly_object (List.Perm.refl _) (by simp)) (ihr _ _ fun m hm => hu m (List.mem_append_right _ hm))
  · intro path i _; exact .nil
  · intro n r ihn ihr path i hu
    exact .cons n r _ _ (ihn _ fun m hm => hu m (List.mem_append_left _ hm))
      (ihr _ _ fun m hm => hu m (List.mem_append_right _ hm))

/-! ### The value determines the tree -/

theorem exactly_single {w x y : Json} {a b : Str} (h : Exactly w [(a, x)]) (h' : Exactly w [(b, y)]) :
    a = b ∧ x = y := by
  obtain ⟨fs, rfl, hp, _⟩ := h
  obtain ⟨fs', h1, hp', _⟩ := h'
  cases h1
  have := (hp.symm.trans hp')
  rw [List.singleton_perm_singleton] at this
  cases this
  exact ⟨rfl, rfl⟩

theorem exactly_perm {w : Json} {l l' : List (Str × Json)} (h : Exactly w l) (h' : Exactly w l') : l.Perm l' := by
  obtain ⟨fs, rfl, hp, _⟩ := h
  obtain ⟨fs', h1, hp', _⟩ := h'
  cases h1
  exact hp.symm.trans hp'

theorem exactly_three {w x1 x2 x3 y1 y2 y3 : Json} {a b c : Str} (h : Exactly w [(a, x1), (b, x2), (c, x3)])
    (h' : Exactly w [(a, y1), (b, y2), (c, y3)]) : x1 = y1 ∧ x2 = y2 ∧ x3 = y3 := by
  have hp := exactly_perm h h'
  obtain ⟨_, _, _, hn⟩ := h
  simp only [List.map_cons, List.map_nil, List.nodup_cons, List.mem_cons, List.not_mem_nil, or_false,
    not_or] at hn
  obtain ⟨⟨hab, hac⟩, hbc, _⟩ := hn
  have m1 : (a, x1) ∈ [(a, y1), (b, y2), (c, y3)] := hp.subset (by simp)
  have m2 : (b, x2) ∈ [(a, y1), (b, y2), (c, y3)] := hp.subset (by simp)
  have m3 : (c, x3) ∈ [(a, y1), (b, y2), (c, y3)] := hp.subset (by simp)
  simp only [List.mem_cons, Prod.mk.injEq, List.not_mem_nil, or_false] at m1 m2 m3
  refine ⟨?_, ?_, ?_⟩
  · rcases m1 with ⟨_, h⟩ | ⟨h, _⟩ | ⟨h, _⟩
    · exact h
    · exact absurd h hab
    · exact absurd h hac
  · rcases m2 with ⟨h, _⟩ | ⟨_, h⟩ | ⟨h, _⟩
    · exact absurd h.symm hab
    · exact h
    · exact absurd h hbc
  · rcases m3 with ⟨h, _⟩ | ⟨h, _⟩ | ⟨_, h⟩
    · exact absurd h.symm hac
    · exact absurd h.symm hbc
    · exact h

theorem isToken_inj {t t' : Token} {j : Json} (h : IsToken t j) (h' : IsToken t' j) : t = t' := by
  obtain ⟨h1, h2, h3⟩ := exactly_three h h'
  cases t; cases t'
  cases h1; cases h2; cases h3
  rfl

theorem isOptToken_inj {t t' : Option Token} {j : Json} (h : IsOptToken t j) (h' : IsOptToken t' j) : t = t' := by
  cases t with
  | none =>
    cases t' with
    | none => rfl
    | some t' => obtain rfl : j = .null := h; obtain ⟨_, h1, _⟩ := h'; cases h1
  | some t =>
    cases t' with
    | none => obtain rfl : j = .null := h'; obtain ⟨_, h1, _⟩ := h; cases h1
    | some t' => rw [isToken_inj h h']

/-- The property of an entry of `children`. -/
inductive EntJson : Key × Bool × Nodes → Str × Json → Prop
  | one {k : Key} {n : Node} {j w : Json} (child : IsTree n j) (content : Exactly w [("Node".toList, j)]) :
      EntJson (k, false, .cons n .nil) (k.name, w)
  | many {k : Key} {ns : Nodes} {js : Jsons} {w : Json} (children : IsTrees ns js)
      (content : Exactly w [("NodeVec".toList, .arr js)]) : EntJson (k, true, ns) (k.name, w)

theorem isKids_ents {ks : Kids} {l : List (Str × Json)} (h : IsKids ks l) : List.Forall₂ EntJson (entries ks) l := by
  revert l
  refine Kids.rec (motive_1 := fun _ => True) (motive_3 := fun _ => True)
    (motive_2 := fun ks => ∀ {l : List (Str × Json)}, IsKids ks l → List.Forall₂ EntJson (entries ks) l)
    (fun _ _ _ _ => trivial) ?_ ?_ ?_ trivial (fun _ _ _ _ => trivial) ks
  · intro l h; cases h; exact .nil
  · intro k n r _ ih l h
    cases h with
    | one _ _ _ j w l hc hw hr => exact .cons (.one hc hw) (ih hr)
  · intro k ns r _ ih l h
    cases h with
    | many _ _ _ js w l hc hw hr => exact .cons (.many hc hw) (ih hr)

theorem node_nodeVec : "Node".toList ≠ "NodeVec".toList := by decide

theorem isTree_same (n : Node) : ∀ n' j, IsTree n j → IsTree n' j → SameTree n n' := by
  refine Node.rec
    (motive_1 := fun n => ∀ n' j, IsTree n j → IsTree n' j → SameTree n n')
    (motive_2 := fun ks => ∀ l es, IsKids ks l → List.Forall₂ EntJson es l → SameEntries (entries ks) es)
    (motive_3 := fun ns => ∀ ns' js, IsTrees ns js → IsTrees ns' js → SameTrees ns ns')
    ?_ ?_ ?_ ?_ ?_ ?_ n
  · intro t ty ks ih n' j h h'
    cases h with
    | node _ _ _ _ jt jc l htok hkids hch hobj =>
      cases h' with
      | node t' ty' ks' _ jt' jc' l' htok' hkids' hch' hobj' =>
        obtain ⟨h1, h2, h3⟩ := exactly_three hobj hobj'
        subst h1; subst h3
        have h2 : ty = ty' := NodeType.name_inj (by injection h2)
        subst h2
        have h4 := isOptToken_inj htok htok'
        subst h4
        have hp := exactly_perm hch hch'
        obtain ⟨es, h5, h6⟩ := List.perm_comp_forall₂ hp (isKids_ents hkids').flip
        exact .node t ty ks ks' es h6 (ih l es hkids h5.flip)
  · intro l es h h'
    cases h
    cases h'
    exact .nil
  · intro k n r ihn ihr l es h h'
    cases h with
    | one _ _ _ j w l hc hw hr =>
      cases h' with
      | @cons e _ es' _ he hes =>
        obtain ⟨k', b, ns⟩ := e
        generalize hname : k.name = nm at he
        cases he with
        | one hc' hw' =>
          cases Key.name_inj hname
          obtain ⟨_, rfl⟩ := exactly_single hw hw'
          exact .cons _ _ (.cons (ihn _ _ hc hc') .nil) (ihr _ _ hr hes)
        | many hc' hw' => exact absurd (exactly_single hw hw').1 node_nodeVec
  · intro k ns r ihn ihr l es h h'
    cases h with
    | many _ _ _ js w l hc hw hr =>
      cases h' with
      | @cons e _ es' _ he hes =>
        obtain ⟨k', b, ns'⟩ := e
        generalize hname : k.name = nm at he
        cases he with
        | one hc' hw' => exact absurd (exactly_single hw hw').1.symm node_nodeVec
        | many hc' hw' =>
          cases Key.name_inj hname
          have h1 := (exactly_single hw hw').2
          injection h1 with h1
          subst h1
          exact .cons _ _ (ihn _ _ hc hc') (ihr _ _ hr hes)
  · intro ns' js h h'
    cases h
    cases h'
    exact .nil
  · intro n r ihn ihr ns' js h h'
    cases h with
    | cons _ _ j js he hr =>
      cases h' with
      | cons n' r' _ _ he' hr' => exact .cons (ihn _ _ he he') (ihr _ _ hr hr')

end Ser
end Verif
