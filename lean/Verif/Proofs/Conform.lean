import Verif.Proofs.Serialize
import Verif.Spec.Loss
/-! Properties of the objects made by the serialiser. -/
namespace Verif.Ser
open Spec

theorem prop_object {l : List (Str × Json)} (hn : (l.map Prod.fst).Nodup) {a : Str} {x : Json} (h : (a, x) ∈ l) :
    prop (object l) a = some x := by
  unfold prop object
  simp only [toList_ofList]
  induction l with
  | nil => cases h
  | cons p l ih =>
    rw [List.find?_cons]
    rcases List.mem_cons.1 h with rfl | h
    · simp
    · have hne : p.1 ≠ a := by
        intro he
        rw [List.map_cons, List.nodup_cons] at hn
        exact hn.1 (List.mem_map.2 ⟨_, h, he.symm⟩)
      have : (p.1 == a) = false := by simp [hne]
      rw [this]
      exact ih (List.nodup_cons.1 hn).2 h

theorem prop_mem {l : List (Str × Json)} {a : Str} {x : Json} (h : prop (object l) a = some x) : (a, x) ∈ l := by
  unfold prop object at h
  simp only [toList_ofList, Option.map_eq_some_iff] at h
  obtain ⟨p, h1, rfl⟩ := h
  have h2 := List.find?_some h1
  simp only [beq_iff_eq] at h2
  rw [← h2]
  exact List.mem_of_find?_eq_some h1

theorem mem_fieldValues {v : Json} (l : List (Str × Json)) :
    v ∈ fieldValues (Fields.ofList l) ↔ ∃ p ∈ l, v ∈ values p.2 := by
  induction l with
  | nil => simp [Fields.ofList, fieldValues]
  | cons p l ih => obtain ⟨s, j⟩ := p; simp [Fields.ofList, fieldValues, ih]

theorem mem_values_object {v : Json} {l : List (Str × Json)} (h : v ∈ values (object l)) :
    v = object l ∨ ∃ p ∈ l, v ∈ values p.2 := by
  unfold object values at h
  rcases List.mem_cons.1 h with h | h
  · exact .inl h
  · exact .inr ((mem_fieldValues l).1 h)

theorem key_ne_node_type (k : Key) : k.name ≠ "node_type".toList := by
  have : ∀ k ∈ Key.all, k.name ≠ "node_type".toList := by decide +kernel
  exact this k (AI.mem_key_all k)

/-- The value has a property `node_type`. -/
def NodeLike (v : Json) : Prop := ∃ s, prop v "node_type".toList = some s

theorem not_nodeLike {l : List (Str × Json)} (h : ∀ p ∈ l, p.1 ≠ "node_type".toList) : ¬ NodeLike (object l) := by
  rintro ⟨s, hs⟩
  exact h _ (prop_mem hs) rfl

theorem values_token {v : Json} {t : Option Token} (h : v ∈ values (optToken t)) : ¬ NodeLike v := by
  cases t with
  | none =>
    simp only [optToken, values, List.mem_singleton] at h
    subst h
    rintro ⟨s, hs⟩
    cases hs
  | some t =>
    rcases mem_values_object h with rfl | ⟨p, hp, hv⟩
    · exact not_nodeLike (by simp)
    · simp only [List.mem_cons, List.not_mem_nil, or_false] at hp
      rcases hp with rfl | rfl | rfl <;>
      · simp only [values, List.mem_singleton] at hv
        subst hv
        rintro ⟨s, hs⟩
        cases hs

variable {ord : Order}

/-- The objects with a property `node_type` are the values of the nodes. -/
theorem values_node (ho : ord.Fair) (n : Node) : ∀ path v, v ∈ values (node ord path n) → NodeLike v →
    ∃ m ∈ Spec.nodes n, ∃ path', v = node ord path' m := by
  refine Node.rec
    (motive_1 := fun n => ∀ path v, v ∈ values (node ord path n) → NodeLike v →
      ∃ m ∈ Spec.nodes n, ∃ path', v = node ord path' m)
    (motive_2 := fun ks => ∀ path i p v, p ∈ kids ord path i ks → v ∈ values p.2 → NodeLike v →
      ∃ m ∈ kidsNodes ks, ∃ path', v = node ord path' m)
    (motive_3 := fun ns => ∀ path i v, v ∈ arrValues (nodes ord path i ns) → NodeLike v →
      ∃ m ∈ listNodes ns, ∃ path', v = node ord path' m)
    ?_ ?_ ?_ ?_ ?_ ?_ n
  · intro t ty ks ih path v hv hl
    unfold node at hv
    rcases mem_values_object hv with rfl | ⟨p, hp, hv⟩
    · exact ⟨_, List.mem_cons_self, path, by rw [node]⟩
    · simp only [List.mem_cons, List.not_mem_nil, or_false] at hp
      rcases hp with rfl | rfl | rfl
      · exact absurd hl (values_token hv)
      · simp only [values, List.mem_singleton] at hv
        subst hv
        obtain ⟨s, hs⟩ := hl
        cases hs
      · rcases mem_values_object hv with rfl | ⟨p, hp, hv⟩
        · refine absurd hl (not_nodeLike fun p hp => ?_)
          have h1 : p.1 ∈ (kids ord path 0 ks).map Prod.fst := List.mem_map.2 ⟨p, (ho _ _).subset hp, rfl⟩
          rw [kids_names] at h1
          obtain ⟨k, _, hk⟩ := List.mem_map.1 h1
          rw [← hk]
          exact key_ne_node_type k
        · obtain ⟨m, h1, h2⟩ := ih path 0 p v ((ho _ _).subset hp) hv hl
          exact ⟨m, List.mem_cons_of_mem _ h1, h2⟩
  · intro path i p v hp
    cases hp
  · intro k n r ihn ihr path i p v hp hv hl
    rw [kids] at hp
    rcases List.mem_cons.1 hp with rfl | hp
    · rcases mem_values_object hv with rfl | ⟨q, hq, hv⟩
      · exact absurd hl (not_nodeLike (by simp))
      · rw [List.mem_singleton] at hq
        subst hq
        obtain ⟨m, h1, h2⟩ := ihn _ v hv hl
        exact ⟨m, List.mem_append_left _ h1, h2⟩
    · obtain ⟨m, h1, h2⟩ := ihr _ _ p v hp hv hl
      exact ⟨m, List.mem_append_right _ h1, h2⟩
  · intro k ns r ihn ihr path i p v hp hv hl
    rw [kids] at hp
    rcases List.mem_cons.1 hp with rfl | hp
    · rcases mem_values_object hv with rfl | ⟨q, hq, hv⟩
      · exact absurd hl (not_nodeLike (by simp))
      · rw [List.mem_singleton] at hq
        subst hq
        simp only [values, List.mem_cons] at hv
        rcases hv with rfl | hv
        · obtain ⟨s, hs⟩ := hl
          cases hs
        · obtain ⟨m, h1, h2⟩ := ihn _ _ v hv hl
          exact ⟨m, List.mem_append_left _ h1, h2⟩
    · obtain ⟨m, h1, h2⟩ := ihr _ _ p v hp hv hl
      exact ⟨m, List.mem_append_right _ h1, h2⟩
  · intro path i v hv
    cases hv
  · intro n r ihn ihr path i v hv hl
    rw [nodes, arrValues] at hv
    rcases List.mem_append.1 hv with hv | hv
    · obtain ⟨m, h1, h2⟩ := ihn _ v hv hl
      exact ⟨m, List.mem_append_left _ h1, h2⟩
    · obtain ⟨m, h1, h2⟩ := ihr _ _ v hv hl
      exact ⟨m, List.mem_append_right _ h1, h2⟩

theorem values_nodes (ho : ord.Fair) (ns : Nodes) : ∀ path i v, v ∈ arrValues (nodes ord path i ns) → NodeLike v →
    ∃ m ∈ listNodes ns, ∃ path', v = node ord path' m := by
  refine Nodes.rec (motive_1 := fun _ => True) (motive_2 := fun _ => True)
    (motive_3 := fun ns => ∀ path i v, v ∈ arrValues (nodes ord path i ns) → NodeLike v →
      ∃ m ∈ listNodes ns, ∃ path', v = node ord path' m)
    (fun _ _ _ _ => trivial) trivial (fun _ _ _ _ _ => trivial) (fun _ _ _ _ _ => trivial) ?_ ?_ ns
  · intro path i v hv
    cases hv
  · intro n r _ ihr path i v hv hl
    rw [nodes, arrValues] at hv
    rcases List.mem_append.1 hv with hv | hv
    · obtain ⟨m, h1, h2⟩ := values_node ho n _ v hv hl
      exact ⟨m, List.mem_append_left _ h1, h2⟩
    · obtain ⟨m, h1, h2⟩ := ihr _ _ v hv hl
      exact ⟨m, List.mem_append_right _ h1, h2⟩

theorem children_keys (ks : Kids) : (children ks).map (·.1) = ks.keys := by
  refine Kids.rec (motive_1 := fun _ => True) (motive_2 := fun ks => (children ks).map (·.1) = ks.keys)
    (motive_3 := fun _ => True) (fun _ _ _ _ => trivial) rfl ?_ ?_ trivial (fun _ _ _ _ => trivial) ks
  · intro k n r _ ih; simp [children, Kids.keys, ih]
  · intro k n r _ ih; simp [children, Kids.keys, ih]

theorem exactly_object_single {a b : Str} {x y : Json} (h : Exactly (object [(a, x)]) [(b, y)]) : a = b ∧ x = y := by
  obtain ⟨fs, h1, h2, _⟩ := h
  injection h1 with h1
  rw [← h1, toList_ofList] at h2
  have := List.perm_singleton.1 h2
  injection this with this
  injection this with h1 h2
  exact ⟨h1, h2⟩

theorem exactly_content {a b : Str} {x y : Json} (h : Exactly (object [(a, x)]) [(b, y)]) : y = x :=
  (exactly_object_single h).2.symm

theorem exactly_name {a b : Str} {x y : Json} (h : Exactly (object [(a, x)]) [(b, y)]) : a = b :=
  (exactly_object_single h).1

theorem mem_nodes {ns : Nodes} : ∀ {path : List Nat} {i : Nat} {c : Json}, c ∈ (nodes ord path i ns).toList →
    ∃ n ∈ ns.toList, ∃ path', c = node ord path' n := by
  refine Nodes.rec (motive_1 := fun _ => True) (motive_2 := fun _ => True)
    (motive_3 := fun ns => ∀ {path : List Nat} {i : Nat} {c : Json}, c ∈ (nodes ord path i ns).toList →
      ∃ n ∈ ns.toList, ∃ path', c = node ord path' n)
    (fun _ _ _ _ => trivial) trivial (fun _ _ _ _ _ => trivial) (fun _ _ _ _ _ => trivial) ?_ ?_ ns
  · intro path i c h; cases h
  · intro n r _ ih path i c h
    rw [nodes, Jsons.toList] at h
    rcases List.mem_cons.1 h with rfl | h
    · exact ⟨n, List.mem_cons_self, _, rfl⟩
    · obtain ⟨m, h1, h2⟩ := ih h
      exact ⟨m, List.mem_cons_of_mem _ h1, h2⟩

/-- The properties of `children` come from the children. -/
theorem mem_kids {ks : Kids} : ∀ (path : List Nat) (i : Nat) (p : Str × Json), p ∈ kids ord path i ks →
    ks.keys.Nodup → ∃ k : Key, p.1 = k.name ∧
      ((arrayAt ks k = some false ∧ ∃ n path', (k, [n]) ∈ children ks ∧ p.2 = object [("Node".toList, node ord path' n)]) ∨
      (arrayAt ks k = some true ∧ ∃ ns path', (k, ns.toList) ∈ children ks ∧
        p.2 = object [("NodeVec".toList, .arr (nodes ord path' 0 ns))])) := by
  have hmem : ∀ ks : Kids, ∀ k, arrayAt ks k ≠ none → k ∈ ks.keys := by
    intro ks
    refine Kids.rec (motive_1 := fun _ => True) (motive_2 := fun ks => ∀ k, arrayAt ks k ≠ none → k ∈ ks.keys)
      (motive_3 := fun _ => True) (fun _ _ _ _ => trivial) ?_ ?_ ?_ trivial (fun _ _ _ _ => trivial) ks
    · intro k h; exact absurd rfl h
    · intro k n r _ ih k' h
      rw [arrayAt] at h
      split at h
      · next he => rw [he]; exact List.mem_cons_self
      · exact List.mem_cons_of_mem _ (ih _ h)
    · intro k n r _ ih k' h
      rw [arrayAt] at h
      split at h
      · next he => rw [he]; exact List.mem_cons_self
      · exact List.mem_cons_of_mem _ (ih _ h)
  refine Kids.rec (motive_1 := fun _ => True) (motive_3 := fun _ => True)
    (motive_2 := fun ks => ∀ (path : List Nat) (i : Nat) (p : Str × Json), p ∈ kids ord path i ks →
      ks.keys.Nodup → ∃ k : Key, p.1 = k.name ∧
        ((arrayAt ks k = some false ∧ ∃ n path', (k, [n]) ∈ children ks ∧ p.2 = object [("Node".toList, node ord path' n)]) ∨
        (arrayAt ks k = some true ∧ ∃ ns path', (k, ns.toList) ∈ children ks ∧
          p.2 = object [("NodeVec".toList, .arr (nodes ord path' 0 ns))])))
    (fun _ _ _ _ => trivial) ?_ ?_ ?_ trivial (fun _ _ _ _ => trivial) ks
  · intro path i p h; cases h
  · intro k n r _ ih path i p h hn
    rw [kids] at h
    rw [Kids.keys, List.nodup_cons] at hn
    rcases List.mem_cons.1 h with rfl | h
    · exact ⟨k, rfl, .inl ⟨by simp [arrayAt], n, _, List.mem_cons_self, rfl⟩⟩
    · obtain ⟨k', h1, h2⟩ := ih _ _ _ h hn.2
      refine ⟨k', h1, ?_⟩
      have hne : k' ≠ k := by
        rintro rfl
        refine hn.1 (hmem _ _ ?_)
        rcases h2 with ⟨h2, _⟩ | ⟨h2, _⟩ <;> rw [h2] <;> simp
      rw [arrayAt, if_neg hne]
      rcases h2 with ⟨h2, n', path', h3, h4⟩ | ⟨h2, ns', path', h3, h4⟩
      · exact .inl ⟨h2, n', path', List.mem_cons_of_mem _ h3, h4⟩
      · exact .inr ⟨h2, ns', path', List.mem_cons_of_mem _ h3, h4⟩
  · intro k n r _ ih path i p h hn
    rw [kids] at h
    rw [Kids.keys, List.nodup_cons] at hn
    rcases List.mem_cons.1 h with rfl | h
    · exact ⟨k, rfl, .inr ⟨by simp [arrayAt], n, _, List.mem_cons_self, rfl⟩⟩
    · obtain ⟨k', h1, h2⟩ := ih _ _ _ h hn.2
      refine ⟨k', h1, ?_⟩
      have hne : k' ≠ k := by
        rintro rfl
        refine hn.1 (hmem _ _ ?_)
        rcases h2 with ⟨h2, _⟩ | ⟨h2, _⟩ <;> rw [h2] <;> simp
      rw [arrayAt, if_neg hne]
      rcases h2 with ⟨h2, n', path', h3, h4⟩ | ⟨h2, ns', path', h3, h4⟩
      · exact .inl ⟨h2, n', path', List.mem_cons_of_mem _ h3, h4⟩
      · exact .inr ⟨h2, ns', path', List.mem_cons_of_mem _ h3, h4⟩

end Verif.Ser
