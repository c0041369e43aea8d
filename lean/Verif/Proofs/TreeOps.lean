import Verif.Proofs.Tree
/-! Children as a list of entries. -/
namespace Verif
open Spec

/-- The entries of a map of children: key, is it an array, nodes. -/
def ents : Kids → List (Key × Bool × List Node)
  | .nil => []
  | .one k n r => (k, false, [n]) :: ents r
  | .many k ns r => (k, true, ns.toList) :: ents r

/-- Insertion into a list of entries. -/
def upd (k : Key) (v : Bool × List Node) : List (Key × Bool × List Node) → List (Key × Bool × List Node)
  | [] => [(k, v)]
  | e :: r => if k = e.1 then (k, v) :: r else e :: upd k v r

/-- Search in a list of entries. -/
def look (k : Key) : List (Key × Bool × List Node) → Option (Bool × List Node)
  | [] => none
  | e :: r => if k = e.1 then some e.2 else look k r

theorem ents_insertOne (k : Key) (c : Node) (ks : Kids) :
    ents (ks.insertOne k c) = upd k (false, [c]) (ents ks) := by
  refine Kids.rec (motive_1 := fun _ => True)
    (motive_2 := fun ks => ents (ks.insertOne k c) = upd k (false, [c]) (ents ks))
    (motive_3 := fun _ => True) (fun _ _ _ _ => trivial) ?_ ?_ ?_ trivial (fun _ _ _ _ => trivial) ks
  · simp [Kids.insertOne, ents, upd]
  · intro k2 n r _ ih
    simp only [Kids.insertOne, ents, upd]
    split <;> simp [ents, ih]
  · intro k2 n r _ ih
    simp only [Kids.insertOne, ents, upd]
    split <;> simp [ents, ih]

theorem ents_insertMany (k : Key) (cs : Nodes) (ks : Kids) :
    ents (ks.insertMany k cs) = upd k (true, cs.toList) (ents ks) := by
  refine Kids.rec (motive_1 := fun _ => True)
    (motive_2 := fun ks => ents (ks.insertMany k cs) = upd k (true, cs.toList) (ents ks))
    (motive_3 := fun _ => True) (fun _ _ _ _ => trivial) ?_ ?_ ?_ trivial (fun _ _ _ _ => trivial) ks
  · simp [Kids.insertMany, ents, upd]
  · intro k2 n r _ ih
    simp only [Kids.insertMany, ents, upd]
    split <;> simp [ents, ih]
  · intro k2 n r _ ih
    simp only [Kids.insertMany, ents, upd]
    split <;> simp [ents, ih]

theorem ents_pushNode (n : Node) (k : Key) (c : Node) :
    ents (n.pushNode k c).kids = upd k (false, [c]) (ents n.kids) := ents_insertOne k c n.kids

theorem ents_pushVec (n : Node) (k : Key) (cs : List Node) :
    ents (n.pushVec k cs).kids = upd k (true, cs) (ents n.kids) := by
  have := ents_insertMany k (Nodes.ofList cs) n.kids
  rwa [Nodes.toList_ofList] at this

theorem mem_upd {k : Key} {v : Bool × List Node} {l : List (Key × Bool × List Node)}
    {e : Key × Bool × List Node} (h : e ∈ upd k v l) : e = (k, v) ∨ e ∈ l := by
  induction l with
  | nil => simpa [upd] using h
  | cons a l ih =>
    simp only [upd] at h
    split at h
    · rcases List.mem_cons.1 h with h | h
      · exact .inl h
      · exact .inr (List.mem_cons_of_mem _ h)
    · rcases List.mem_cons.1 h with h | h
      · exact .inr (h ▸ List.mem_cons_self)
      · rcases ih h with h | h
        · exact .inl h
        · exact .inr (List.mem_cons_of_mem _ h)

theorem look_upd (k k' : Key) (v : Bool × List Node) (l : List (Key × Bool × List Node)) :
    look k' (upd k v l) = if k' = k then some v else look k' l := by
  induction l with
  | nil => simp [upd, look]
  | cons a l ih =>
    simp only [upd]
    split
    · next h =>
      subst h
      simp only [look]
      split <;> simp_all
    · next h =>
      simp only [look, ih]
      by_cases h1 : k' = a.1
      · subst h1
        simp [Ne.symm h]
      · simp [h1]

theorem upd_none {k : Key} {v : Bool × List Node} {l : List (Key × Bool × List Node)}
    (h : look k l = none) : upd k v l = l ++ [(k, v)] := by
  induction l with
  | nil => rfl
  | cons a l ih =>
    simp only [look] at h
    split at h
    · cases h
    · next h1 => simp [upd, h1, ih h]

theorem upd_some {k : Key} {v u : Bool × List Node} {l : List (Key × Bool × List Node)}
    (h : look k l = some u) :
    ∃ l1 l2, l = l1 ++ (k, u) :: l2 ∧ upd k v l = l1 ++ (k, v) :: l2 := by
  induction l with
  | nil => simp [look] at h
  | cons a l ih =>
    simp only [look] at h
    split at h
    · next h1 =>
      cases h
      exact ⟨[], l, by simp [h1], by simp [upd, h1]⟩
    · next h1 =>
      obtain ⟨l1, l2, h2, h3⟩ := ih h
      exact ⟨a :: l1, l2, by simp [h2], by simp [upd, h1, h3]⟩

theorem mem_of_look {k : Key} {u : Bool × List Node} {l : List (Key × Bool × List Node)}
    (h : look k l = some u) : (k, u) ∈ l := by
  obtain ⟨l1, l2, h2, _⟩ := upd_some (v := u) h
  rw [h2]; simp

theorem look_of_mem {l : List (Key × Bool × List Node)} {e : Key × Bool × List Node} (h : e ∈ l) :
    look e.1 l ≠ none := by
  induction l with
  | nil => simp at h
  | cons a l ih =>
    simp only [look]
    split
    · simp
    · next h1 =>
      rcases List.mem_cons.1 h with rfl | h
      · exact absurd rfl h1
      · exact ih h

theorem listNodes_toList (ns : Nodes) : listNodes ns = ns.toList.flatMap nodes := by
  refine Nodes.rec (motive_1 := fun _ => True) (motive_2 := fun _ => True)
    (motive_3 := fun ns => listNodes ns = ns.toList.flatMap nodes)
    (fun _ _ _ _ => trivial) trivial (fun _ _ _ _ _ => trivial) (fun _ _ _ _ _ => trivial) ?_ ?_ ns
  · rfl
  · intro n r _ ih
    simp [listNodes, Nodes.toList, ih]

theorem kidsNodes_ents (ks : Kids) : kidsNodes ks = (ents ks).flatMap fun e => e.2.2.flatMap nodes := by
  refine Kids.rec (motive_1 := fun _ => True)
    (motive_2 := fun ks => kidsNodes ks = (ents ks).flatMap fun e => e.2.2.flatMap nodes)
    (motive_3 := fun _ => True) (fun _ _ _ _ => trivial) ?_ ?_ ?_ trivial (fun _ _ _ _ => trivial) ks
  · rfl
  · intro k n r _ ih
    simp [kidsNodes, ents, ih]
  · intro k n r _ ih
    simp [kidsNodes, ents, ih, listNodes_toList]

theorem nodes_eq (n : Node) : nodes n = n :: (ents n.kids).flatMap fun e => e.2.2.flatMap nodes := by
  rw [← kidsNodes_ents]; cases n; rfl

theorem arrayAt_look (ks : Kids) (k : Key) : arrayAt ks k = (look k (ents ks)).map Prod.fst := by
  refine Kids.rec (motive_1 := fun _ => True)
    (motive_2 := fun ks => arrayAt ks k = (look k (ents ks)).map Prod.fst)
    (motive_3 := fun _ => True) (fun _ _ _ _ => trivial) ?_ ?_ ?_ trivial (fun _ _ _ _ => trivial) ks
  · rfl
  · intro k' n r _ ih
    simp only [arrayAt, ents, look]
    split <;> simp [ih]
  · intro k' n r _ ih
    simp only [arrayAt, ents, look]
    split <;> simp [ih]

theorem children_ents (ks : Kids) : children ks = (ents ks).map fun e => (e.1, e.2.2) := by
  refine Kids.rec (motive_1 := fun _ => True)
    (motive_2 := fun ks => children ks = (ents ks).map fun e => (e.1, e.2.2))
    (motive_3 := fun _ => True) (fun _ _ _ _ => trivial) ?_ ?_ ?_ trivial (fun _ _ _ _ => trivial) ks
  · rfl
  · intro k n r _ ih
    simp [children, ents, ih]
  · intro k n r _ ih
    simp [children, ents, ih]

theorem keys_ents (ks : Kids) : ks.keys = (ents ks).map Prod.fst := by
  refine Kids.rec (motive_1 := fun _ => True)
    (motive_2 := fun ks => ks.keys = (ents ks).map Prod.fst)
    (motive_3 := fun _ => True) (fun _ _ _ _ => trivial) ?_ ?_ ?_ trivial (fun _ _ _ _ => trivial) ks
  · rfl
  · intro k n r _ ih
    simp [Kids.keys, ents, ih]
  · intro k n r _ ih
    simp [Kids.keys, ents, ih]

theorem childrenAt_ents (n : Node) (k : Key) :
    childrenAt n k = (ents n.kids).flatMap fun e => if e.1 = k then e.2.2 else [] := by
  unfold childrenAt
  rw [children_ents, List.flatMap_map]

theorem childrenAt_upd {k k' : Key} (h : k' ≠ k) (v : Bool × List Node)
    (l : List (Key × Bool × List Node)) :
    ((upd k v l).flatMap fun e => if e.1 = k' then e.2.2 else []) =
      l.flatMap fun e => if e.1 = k' then e.2.2 else [] := by
  induction l with
  | nil => simp [upd, Ne.symm h]
  | cons a l ih =>
    simp only [upd]
    split
    · next h1 =>
      have h2 : a.1 ≠ k' := by rw [← h1]; exact h.symm
      simp [h2, Ne.symm h]
    · simp [ih]

theorem mem_keys_iff (ks : Kids) (k : Key) : k ∈ ks.keys ↔ arrayAt ks k ≠ none := by
  rw [keys_ents, arrayAt_look]
  constructor
  · intro h
    obtain ⟨e, he, rfl⟩ := List.mem_map.1 h
    have := look_of_mem he
    simpa using this
  · intro h
    rcases hl : look k (ents ks) with _ | u
    · simp [hl] at h
    · exact List.mem_map.2 ⟨_, mem_of_look hl, rfl⟩

end Verif
