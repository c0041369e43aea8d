import Verif.Spec.Tree
import Verif.Proofs.Diag
/-! Facts about trees. -/
namespace Verif
open Core Interp Spec

theorem self_mem_nodes (n : Node) : n ∈ nodes n := by
  cases n; simp [nodes]

theorem mem_nodes_iff (n m : Node) : m ∈ nodes n ↔ m = n ∨ m ∈ kidsNodes n.kids := by
  cases n; simp [nodes, Node.kids]

theorem mem_listNodes_ofList (cs : List Node) (m : Node) :
    m ∈ listNodes (Nodes.ofList cs) ↔ ∃ c ∈ cs, m ∈ nodes c := by
  induction cs with
  | nil => simp [Nodes.ofList, listNodes]
  | cons c cs ih => simp [Nodes.ofList, listNodes, ih]

theorem mem_insertOne {k : Key} {c : Node} {ks : Kids} {m : Node}
    (h : m ∈ kidsNodes (ks.insertOne k c)) : m ∈ nodes c ∨ m ∈ kidsNodes ks := by
  revert h
  refine Kids.rec (motive_1 := fun _ => True)
    (motive_2 := fun ks => m ∈ kidsNodes (ks.insertOne k c) → m ∈ nodes c ∨ m ∈ kidsNodes ks)
    (motive_3 := fun _ => True) (fun _ _ _ _ => trivial) ?_ ?_ ?_ trivial (fun _ _ _ _ => trivial) ks
  · simp [Kids.insertOne, kidsNodes]
  · intro k' n r _ ih h
    simp only [Kids.insertOne] at h
    split at h <;> simp only [kidsNodes, List.mem_append] at h ⊢
    · tauto
    · tauto
  · intro k' n r _ ih h
    simp only [Kids.insertOne] at h
    split at h <;> simp only [kidsNodes, List.mem_append] at h ⊢
    · tauto
    · tauto

theorem mem_insertMany {k : Key} {cs : Nodes} {ks : Kids} {m : Node}
    (h : m ∈ kidsNodes (ks.insertMany k cs)) : m ∈ listNodes cs ∨ m ∈ kidsNodes ks := by
  revert h
  refine Kids.rec (motive_1 := fun _ => True)
    (motive_2 := fun ks => m ∈ kidsNodes (ks.insertMany k cs) → m ∈ listNodes cs ∨ m ∈ kidsNodes ks)
    (motive_3 := fun _ => True) (fun _ _ _ _ => trivial) ?_ ?_ ?_ trivial (fun _ _ _ _ => trivial) ks
  · simp [Kids.insertMany, kidsNodes]
  · intro k' n r _ ih h
    simp only [Kids.insertMany] at h
    split at h <;> simp only [kidsNodes, List.mem_append] at h ⊢
    · tauto
    · tauto
  · intro k' n r _ ih h
    simp only [Kids.insertMany] at h
    split at h <;> simp only [kidsNodes, List.mem_append] at h ⊢
    · tauto
    · tauto

theorem mem_nodes_pushNode {n c : Node} {k : Key} {m : Node} (h : m ∈ nodes (n.pushNode k c)) :
    m = n.pushNode k c ∨ m ∈ nodes n ∨ m ∈ nodes c := by
  rw [mem_nodes_iff] at h
  rcases h with h | h
  · exact .inl h
  · right
    rcases mem_insertOne h with h | h
    · exact .inr h
    · exact .inl ((mem_nodes_iff _ _).2 (.inr h))

theorem mem_nodes_pushVec {n : Node} {cs : List Node} {k : Key} {m : Node}
    (h : m ∈ nodes (n.pushVec k cs)) :
    m = n.pushVec k cs ∨ m ∈ nodes n ∨ ∃ c ∈ cs, m ∈ nodes c := by
  rw [mem_nodes_iff] at h
  rcases h with h | h
  · exact .inl h
  · right
    rcases mem_insertMany h with h | h
    · exact .inr ((mem_listNodes_ofList _ _).1 h)
    · exact .inl ((mem_nodes_iff _ _).2 (.inr h))

theorem mem_nodes_setType {n : Node} {nt : NodeType} {m : Node} (h : m ∈ nodes (n.setType nt)) :
    m = n.setType nt ∨ m ∈ nodes n := by
  rw [mem_nodes_iff] at h
  rcases h with h | h
  · exact .inl h
  · exact .inr ((mem_nodes_iff _ _).2 (.inr h))

theorem keys_insertOne_mem (ks : Kids) (k : Key) (c : Node) (k' : Key) :
    k' ∈ (ks.insertOne k c).keys ↔ k' = k ∨ k' ∈ ks.keys := by
  refine Kids.rec (motive_1 := fun _ => True)
    (motive_2 := fun ks => k' ∈ (ks.insertOne k c).keys ↔ k' = k ∨ k' ∈ ks.keys)
    (motive_3 := fun _ => True) (fun _ _ _ _ => trivial) ?_ ?_ ?_ trivial (fun _ _ _ _ => trivial) ks
  · simp [Kids.insertOne, Kids.keys]
  · intro k2 n r _ ih
    simp only [Kids.insertOne]
    split
    · subst_vars; simp only [Kids.keys, List.mem_cons]; tauto
    · simp only [Kids.keys, List.mem_cons, ih]; tauto
  · intro k2 n r _ ih
    simp only [Kids.insertOne]
    split
    · subst_vars; simp only [Kids.keys, List.mem_cons]; tauto
    · simp only [Kids.keys, List.mem_cons, ih]; tauto

theorem keys_insertMany_mem (ks : Kids) (k : Key) (c : Nodes) (k' : Key) :
    k' ∈ (ks.insertMany k c).keys ↔ k' = k ∨ k' ∈ ks.keys := by
  refine Kids.rec (motive_1 := fun _ => True)
    (motive_2 := fun ks => k' ∈ (ks.insertMany k c).keys ↔ k' = k ∨ k' ∈ ks.keys)
    (motive_3 := fun _ => True) (fun _ _ _ _ => trivial) ?_ ?_ ?_ trivial (fun _ _ _ _ => trivial) ks
  · simp [Kids.insertMany, Kids.keys]
  · intro k2 n r _ ih
    simp only [Kids.insertMany]
    split
    · subst_vars; simp only [Kids.keys, List.mem_cons]; tauto
    · simp only [Kids.keys, List.mem_cons, ih]; tauto
  · intro k2 n r _ ih
    simp only [Kids.insertMany]
    split
    · subst_vars; simp only [Kids.keys, List.mem_cons]; tauto
    · simp only [Kids.keys, List.mem_cons, ih]; tauto

theorem keys_insertOne_nodup (ks : Kids) (k : Key) (c : Node) (h : ks.keys.Nodup) :
    (ks.insertOne k c).keys.Nodup := by
  revert h
  refine Kids.rec (motive_1 := fun _ => True)
    (motive_2 := fun ks => ks.keys.Nodup → (ks.insertOne k c).keys.Nodup)
    (motive_3 := fun _ => True) (fun _ _ _ _ => trivial) ?_ ?_ ?_ trivial (fun _ _ _ _ => trivial) ks
  · simp [Kids.insertOne, Kids.keys]
  · intro k2 n r _ ih h
    simp only [Kids.keys, List.nodup_cons] at h
    simp only [Kids.insertOne]
    split
    · subst_vars; simp only [Kids.keys, List.nodup_cons]; exact h
    · rename_i hne
      simp only [Kids.keys, List.nodup_cons, keys_insertOne_mem]
      exact ⟨by tauto, ih h.2⟩
  · intro k2 n r _ ih h
    simp only [Kids.keys, List.nodup_cons] at h
    simp only [Kids.insertOne]
    split
    · subst_vars; simp only [Kids.keys, List.nodup_cons]; exact h
    · rename_i hne
      simp only [Kids.keys, List.nodup_cons, keys_insertOne_mem]
      exact ⟨by tauto, ih h.2⟩

theorem keys_insertMany_nodup (ks : Kids) (k : Key) (c : Nodes) (h : ks.keys.Nodup) :
    (ks.insertMany k c).keys.Nodup := by
  revert h
  refine Kids.rec (motive_1 := fun _ => True)
    (motive_2 := fun ks => ks.keys.Nodup → (ks.insertMany k c).keys.Nodup)
    (motive_3 := fun _ => True) (fun _ _ _ _ => trivial) ?_ ?_ ?_ trivial (fun _ _ _ _ => trivial) ks
  · simp [Kids.insertMany, Kids.keys]
  · intro k2 n r _ ih h
    simp only [Kids.keys, List.nodup_cons] at h
    simp only [Kids.insertMany]
    split
    · subst_vars; simp only [Kids.keys, List.nodup_cons]; exact h
    · rename_i hne
      simp only [Kids.keys, List.nodup_cons, keys_insertMany_mem]
      exact ⟨by tauto, ih h.2⟩
  · intro k2 n r _ ih h
    simp only [Kids.keys, List.nodup_cons] at h
    simp only [Kids.insertMany]
    split
    · subst_vars; simp only [Kids.keys, List.nodup_cons]; exact h
    · rename_i hne
      simp only [Kids.keys, List.nodup_cons, keys_insertMany_mem]
      exact ⟨by tauto, ih h.2⟩

/-- The comment nodes built from indices. -/
theorem commentNodes_ok {toks : List Token} {is : List Nat} {ns : List Node}
    (h : commentNodes toks is = .ok ns) :
    List.Forall₂ (fun i n => ∃ t, toks[i]? = some t ∧ n = Node.new t .Comment) is ns := by
  induction is generalizing ns with
  | nil => simp [commentNodes] at h; subst h; exact .nil
  | cons i is ih =>
    simp only [commentNodes] at h
    split at h
    · rename_i t ns' h1 h2
      cases h
      refine .cons ⟨t, ?_, rfl⟩ (ih h2)
      unfold tokAt at h1
      split at h1 <;> cases h1
      assumption
    · cases h

/-- `attachComments` in one formula. -/
theorem attachComments_ok {toks : List Token} {s : PS} {n m : Node}
    (h : attachComments toks s n = .ok m) :
    ∃ ls ts, commentNodes toks s.lead = .ok ls ∧ commentNodes toks s.trail = .ok ts ∧
      m = (if 0 < ts.length then
            (if 0 < ls.length then n.pushVec .k_leading_comments ls else n).pushVec
              .k_trailing_comments ts
          else (if 0 < ls.length then n.pushVec .k_leading_comments ls else n)) := by
  unfold attachComments at h
  split at h
  · rename_i ls ts h1 h2
    exact ⟨ls, ts, h1, h2, by simpa using h.symm⟩
  · cases h

/-- What `construct_node` builds before the comments are attached. -/
theorem construct_ok {U : Unicode} {toks : List Token} {s : PS} {nt : NodeType} {n : Node}
    (h : construct U toks s nt = .ok n) :
    ∃ t, getToken toks s 0 = .ok t ∧
      ((nt = .EOF ∧ attachComments toks s (Node.empty .EOF) = .ok n) ∨
       (nt = .Unknown ∧ ∃ ty, classify U toks s t = .ok ty ∧ attachComments toks s (Node.new t ty) = .ok n) ∨
       (nt ≠ .EOF ∧ nt ≠ .Unknown ∧ attachComments toks s (Node.new t nt) = .ok n)) := by
  unfold construct at h
  split at h <;> try cases h
  rename_i t ht
  refine ⟨t, ht, ?_⟩
  split at h
  · exact .inl ⟨by assumption, h⟩
  · split at h
    · split at h <;> try cases h
      rename_i ty hty
      exact .inr (.inl ⟨by assumption, ty, hty, h⟩)
    · exact .inr (.inr ⟨by assumption, by assumption, h⟩)

/-- An invariant of all nodes of a tree that `attachComments` preserves holds of constructed nodes. -/
theorem construct_all {U : Unicode} {toks : List Token} {P : Node → Prop}
    (hP : ∀ n cs k, P n → (∀ c ∈ cs, P c) → P (n.pushVec k cs))
    (hnew : ∀ t ty, P (Node.new t ty)) (hempty : ∀ ty, P (Node.empty ty))
    {s : PS} {nt : NodeType} {n : Node} (h : construct U toks s nt = .ok n) : P n := by
  have hc : ∀ is ns, commentNodes toks is = .ok ns → ∀ c ∈ ns, P c := by
    intro is ns h
    have := commentNodes_ok h
    clear h
    induction this with
    | nil => simp
    | cons h1 _ ih =>
      obtain ⟨t, _, rfl⟩ := h1
      intro c hc
      rcases List.mem_cons.1 hc with rfl | hc
      · exact hnew _ _
      · exact ih c hc
  have ha : ∀ n m, P n → attachComments toks s n = .ok m → P m := by
    intro n m hn h
    obtain ⟨ls, ts, h1, h2, rfl⟩ := attachComments_ok h
    have hl := hc _ _ h1
    have ht := hc _ _ h2
    split
    · refine hP _ _ _ ?_ ht
      split
      · exact hP _ _ _ hn hl
      · exact hn
    · split
      · exact hP _ _ _ hn hl
      · exact hn
  obtain ⟨t, _, ⟨_, h⟩ | ⟨_, ty, _, h⟩ | ⟨_, _, h⟩⟩ := construct_ok h
  · exact ha _ _ (hempty _) h
  · exact ha _ _ (hnew _ _) h
  · exact ha _ _ (hnew _ _) h

/-- The invariant "every node has unique keys". -/
def Diag.uniqueKeys (U : Unicode) (toks : List Token) : Diag U toks :=
  let P : Node → Prop := fun n => ∀ m ∈ nodes n, m.kids.keys.Nodup
  have hvec : ∀ n cs k, P n → (∀ c ∈ cs, P c) → P (n.pushVec k cs) := by
    intro n cs k hn hcs m hm
    rcases mem_nodes_pushVec hm with rfl | hm | ⟨c, hc, hm⟩
    · exact keys_insertMany_nodup _ _ _ (hn n (self_mem_nodes n))
    · exact hn m hm
    · exact hcs c hc m hm
  have hnew : ∀ o ty, P (Node.mk o ty .nil) := by
    intro o ty m hm
    simp only [nodes, kidsNodes, List.mem_singleton] at hm
    subst hm
    simp [Node.kids, Kids.keys]
  { Q := fun s => s.In toks
    P := P
    inp := fun _ h => h
    next := (Diag.trivial U toks).next
    construct := fun s nt n _ h => construct_all hvec (fun _ _ => hnew _ _) (fun _ => hnew _ _) h
    empty := fun nt => hnew _ _
    pushNode := by
      intro n c k hn hc m hm
      rcases mem_nodes_pushNode hm with rfl | hm | hm
      · exact keys_insertOne_nodup _ _ _ (hn n (self_mem_nodes n))
      · exact hn m hm
      · exact hc m hm
    pushVec := hvec
    setType := by
      intro n nt hn m hm
      rcases mem_nodes_setType hm with rfl | hm
      · exact hn n (self_mem_nodes n)
      · exact hn m hm }

theorem parse_uniqueKeys {U : Unicode} {toks : List Token} {ns : List Node}
    (h : parseTokens U toks = .ok ns) : ∀ n ∈ ns, ∀ m ∈ nodes n, m.kids.keys.Nodup :=
  (Diag.uniqueKeys U toks).parse_ok (new_in toks) h

end Verif
