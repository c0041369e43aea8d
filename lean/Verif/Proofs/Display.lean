import Verif.Model.Display
import Verif.Spec.Display
import Verif.Spec.Tree
import Mathlib.Data.List.Lex
/-! The rendering function satisfies the rendering relation. -/
namespace Verif
open Spec Node

theorem Key.all_chain : (Key.all.map Key.name).IsChain (· < ·) := by decide +kernel

theorem Key.all_get (k : Key) : Key.all[k.ctorIdx]? = some k := by cases k <;> rfl

theorem Key.name_lt {a b : Key} (h : a.ctorIdx < b.ctorIdx) : a.name < b.name := by
  have hp := List.isChain_iff_pairwise.1 Key.all_chain
  rw [List.pairwise_iff_getElem] at hp
  have ha := Key.all_get a
  have hb := Key.all_get b
  obtain ⟨ha1, ha2⟩ := List.getElem?_eq_some_iff.1 ha
  obtain ⟨hb1, hb2⟩ := List.getElem?_eq_some_iff.1 hb
  have := hp a.ctorIdx b.ctorIdx (by simpa using ha1) (by simpa using hb1) h
  simpa [ha2, hb2] using this

theorem insertEntry_perm (k : Key) (ls : List Str) (es : List (Key × List Str)) :
    (insertEntry k ls es).Perm ((k, ls) :: es) := by
  induction es with
  | nil => exact .refl _
  | cons e es ih =>
    simp only [insertEntry]
    split
    · exact .refl _
    · exact (List.Perm.cons _ ih).trans (List.Perm.swap _ _ _)

theorem insertEntry_sorted (k : Key) (ls : List Str) (es : List (Key × List Str))
    (h : es.Pairwise fun a b => a.1.ctorIdx < b.1.ctorIdx) (hk : k ∉ es.map (·.1)) :
    (insertEntry k ls es).Pairwise fun a b => a.1.ctorIdx < b.1.ctorIdx := by
  induction es with
  | nil => simp [insertEntry]
  | cons e es ih =>
    obtain ⟨ke, le⟩ := e
    obtain ⟨h1, h2⟩ := List.pairwise_cons.1 h
    simp only [List.map_cons, List.mem_cons, not_or] at hk
    have hne : k.ctorIdx ≠ ke.ctorIdx := fun hh => hk.1 (by
      have := Key.all_get k; rw [hh, Key.all_get] at this; exact (Option.some.inj this).symm)
    simp only [insertEntry]
    split
    · rename_i hle
      refine List.pairwise_cons.2 ⟨?_, h⟩
      intro x hx
      rcases List.mem_cons.1 hx with rfl | hx
      · change k.ctorIdx < ke.ctorIdx; omega
      · have : ke.ctorIdx < x.1.ctorIdx := h1 x hx
        change k.ctorIdx < x.1.ctorIdx; omega
    · refine List.pairwise_cons.2 ⟨?_, ih h2 hk.2⟩
      intro x hx
      rcases List.mem_cons.1 ((insertEntry_perm k ls es).mem_iff.1 hx) with rfl | hx
      · change ke.ctorIdx < k.ctorIdx; omega
      · exact h1 x hx

/-- Sorting by insertion, with the entries in their original order. -/
def sortEntries : List (Key × List Str) → List (Key × List Str)
  | [] => []
  | (k, ls) :: r => insertEntry k ls (sortEntries r)

theorem sortEntries_perm (es : List (Key × List Str)) : (sortEntries es).Perm es := by
  induction es with
  | nil => exact .refl _
  | cons e es ih => exact (insertEntry_perm _ _ _).trans (ih.cons _)

theorem sortEntries_sorted (es : List (Key × List Str)) (h : (es.map (·.1)).Nodup) :
    (sortEntries es).Pairwise fun a b => a.1.ctorIdx < b.1.ctorIdx := by
  induction es with
  | nil => simp [sortEntries]
  | cons e es ih =>
    simp only [List.map_cons, List.nodup_cons] at h
    refine insertEntry_sorted _ _ _ (ih h.2) ?_
    intro hm
    exact h.1 (((sortEntries_perm es).map _).mem_iff.1 hm)

theorem spaces_eq (d : Nat) (s : Str) : spaces (d * 2) ++ s = indented d s := by
  simp [spaces, indented, Nat.mul_comm]

theorem rendersKids_keys {d : Nat} {ks : Kids} {es : List (Key × List Str)}
    (h : RendersKids d ks es) : es.map (·.1) = ks.keys := by
  refine RendersKids.rec (motive_1 := fun _ _ _ _ => True)
    (motive_2 := fun d ks es _ => es.map (·.1) = ks.keys) (motive_3 := fun _ _ _ _ => True)
    ?_ ?_ ?_ ?_ ?_ ?_ ?_ h <;> simp_all [Kids.keys]

/-- First line of a node that is not an array element. -/
theorem header_false (t : Option Token) (ty : NodeType) (d : Nat) :
    header t ty d false = indented d (selfText t ty) := by
  unfold header selfText indented spaces
  generalize ty.name = nm
  cases t
  all_goals
    simp only [Nat.mul_comm, List.append_assoc, Bool.false_eq_true, if_false, Option.elim]

theorem header_true (t : Option Token) (ty : NodeType) (d : Nat) :
    header t ty (d + 1) true = indented d ("- ".toList ++ selfText t ty) := by
  have h : "- self: ".toList = "- ".toList ++ "self: ".toList := by decide
  unfold header selfText indented spaces
  generalize ty.name = nm
  rw [h]
  cases t
  all_goals
    simp only [Nat.mul_comm, List.append_assoc, if_true, Option.elim, Nat.add_sub_cancel]

/-- All nodes have unique keys. -/
def Uniq (ns : List Node) : Prop := ∀ m ∈ ns, m.kids.keys.Nodup

mutual
theorem renders_lines (n : Node) (h : Uniq (nodes n)) (d : Nat) : Renders d n (lines d false n) := by
  match n, h with
  | .mk t ty ks, h =>
    simp only [lines, header_false]
    obtain ⟨es, h1, h2⟩ := renders_kids ks (fun m hm => h m (by simp [nodes, hm])) d
    rw [h2]
    refine .node d t ty ks es h1 _ (sortEntries_perm es) ?_
    refine (sortEntries_sorted es ?_).imp fun hh => Key.name_lt hh
    rw [rendersKids_keys h1]
    exact h (.mk t ty ks) (by simp [nodes])
theorem renders_kids (ks : Kids) (h : Uniq (kidsNodes ks)) (d : Nat) :
    ∃ es, RendersKids d ks es ∧ kidsLines d ks = sortEntries es := by
  match ks, h with
  | .nil, _ => exact ⟨[], .nil d, rfl⟩
  | .one k n r, h =>
    obtain ⟨es, h1, h2⟩ := renders_kids r (fun m hm => h m (by simp [kidsNodes, hm])) d
    have h3 := renders_lines n (fun m hm => h m (by simp [kidsNodes, hm])) (d + 1)
    refine ⟨_, .one d k n r _ es h3 h1, ?_⟩
    simp only [kidsLines, sortEntries, h2, indented, spaces, List.append_assoc, Nat.mul_comm]
  | .many k .nil r, h =>
    obtain ⟨es, h1, h2⟩ := renders_kids r (fun m hm => h m (by simp [kidsNodes, hm])) d
    refine ⟨_, .emptyArray d k r es h1, ?_⟩
    simp only [kidsLines, nodesLines, sortEntries, h2, indented, spaces, List.append_assoc, Nat.mul_comm]
  | .many k (.cons n ns) r, h =>
    obtain ⟨es, h1, h2⟩ := renders_kids r (fun m hm => h m (by simp [kidsNodes, hm])) d
    have h3 := renders_array (.cons n ns) (fun m hm => h m (by simp [kidsNodes, hm])) d
    refine ⟨_, .array d k n ns r _ es h3 h1, ?_⟩
    simp only [kidsLines, sortEntries, h2, indented, spaces, List.append_assoc, Nat.mul_comm]
theorem renders_array (ns : Nodes) (h : Uniq (listNodes ns)) (d : Nat) :
    RendersArray (d + 1) ns (nodesLines (d + 1) ns) := by
  match ns, h with
  | .nil, _ => exact .nil _
  | .cons n r, h =>
    have h1 := renders_lines n (fun m hm => h m (by simp [listNodes, hm])) (d + 1)
    have h2 := renders_array r (fun m hm => h m (by simp [listNodes, hm])) d
    obtain ⟨t, ty, ks⟩ := n
    simp only [nodesLines, lines, header_true]
    simp only [lines, header_false] at h1
    exact .cons d _ r _ _ _ h1 h2
end

end Verif
