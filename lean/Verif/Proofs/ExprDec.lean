import Verif.Proofs.Masks
import Verif.Spec.Expr
/-! A test for `Ok` of Spec/Expr.lean, for examples. -/
namespace Verif.Spec

instance (c : Char) : Decidable (NameStart c) := by unfold NameStart; infer_instance
instance (c : Char) : Decidable (Digit c) := by unfold Digit; infer_instance

/-- A test for `AtomIs`; of the numbers only integers. -/
def atomB (U : Unicode) (l : Str) (ty : NodeType) : Bool :=
  match ty, l with
  | .Identifier, c :: cs => decide (NameStart c) && cs.all (fun d => decide (NameStart d ∨ Digit d)) &&
      Kw.all.all fun k => U.upper (c :: cs) != k.lit
  | .NumericLiteral, c :: cs => (c :: cs).all fun d => decide (Digit d)
  | .StringLiteral, q :: cs => (q == '"' || q == '\'') && cs.getLast? == some q
  | .Parameter, '@' :: c :: cs => decide (NameStart c) && cs.all (fun d => decide (NameStart d ∨ Digit d))
  | .BooleanLiteral, l => l == "TRUE".toList || l == "FALSE".toList
  | .NullLiteral, l => l == "NULL".toList
  | _, _ => false

theorem atomB_sound {U : Unicode} {l : Str} {ty : NodeType} (h : atomB U l ty = true) : AtomIs U l ty := by
  unfold atomB at h
  split at h
  · rename_i c cs
    simp only [Bool.and_eq_true, decide_eq_true_eq, List.all_eq_true, bne_iff_ne, ne_eq] at h
    exact .name c cs h.1.1 h.1.2 fun k => h.2 k (AI.mem_kw_all k)
  · rename_i c cs
    simp only [List.all_eq_true, decide_eq_true_eq] at h
    exact .int c cs h
  · rename_i q cs
    simp only [Bool.and_eq_true, Bool.or_eq_true, beq_iff_eq] at h
    obtain ⟨ys, rfl⟩ := List.getLast?_eq_some_iff.1 h.2
    exact .string q h.1 ys
  · rename_i c cs
    simp only [Bool.and_eq_true, decide_eq_true_eq, List.all_eq_true] at h
    exact .param c cs h.1 h.2
  · simp only [Bool.or_eq_true, beq_iff_eq] at h
    rcases h with rfl | rfl
    · exact .true
    · exact .false
  · simp only [beq_iff_eq] at h
    subst h
    exact .null
  · cases h

mutual
/-- A test for `Closes`. -/
def Ex.closesB (f : Nat) : Ex → Bool
  | .atom _ _ => true
  | .pre s as => match openBound s.items with
    | none => true
    | some b => decide (b ≤ f) && as.lastClosesB f
  | .post _ s as => match openBound s.items with
    | none => true
    | some b => decide (b ≤ f) && as.lastClosesB f
/-- A test for `LastCloses`. -/
def Exs.lastClosesB (f : Nat) : Exs → Bool
  | .one e => e.closesB f
  | .cons _ es => es.lastClosesB f
  | .last _ _ => true
  | .more _ _ es => es.lastClosesB f
/-- A test for `LastCloses`. -/
def Args.lastClosesB (f : Nat) : Args → Bool
  | .nil => true
  | .cons es .nil => es.lastClosesB f
  | .cons _ as => as.lastClosesB f
end

mutual
theorem Ex.closesB_sound : ∀ (e : Ex) {f : Nat}, e.closesB f = true → e.Closes f
  | .atom _ _, f, _ => trivial
  | .pre s as, f, h => by
    unfold Ex.closesB at h
    unfold Ex.Closes
    split at h <;> rename_i ho <;> rw [ho]
    · trivial
    · simp only [Bool.and_eq_true, decide_eq_true_eq] at h
      exact ⟨h.1, as.lastClosesB_sound h.2⟩
  | .post _ s as, f, h => by
    unfold Ex.closesB at h
    unfold Ex.Closes
    split at h <;> rename_i ho <;> rw [ho]
    · trivial
    · simp only [Bool.and_eq_true, decide_eq_true_eq] at h
      exact ⟨h.1, as.lastClosesB_sound h.2⟩
theorem Exs.lastClosesB_sound : ∀ (es : Exs) {f : Nat}, es.lastClosesB f = true → es.LastCloses f
  | .one e, _, h => e.closesB_sound h
  | .cons _ es, _, h => es.lastClosesB_sound h
  | .last _ _, _, _ => trivial
  | .more _ _ es, _, h => es.lastClosesB_sound h
theorem Args.lastClosesB_sound : ∀ (as : Args) {f : Nat}, as.lastClosesB f = true → as.LastCloses f
  | .nil, _, _ => trivial
  | .cons es .nil, _, h => es.lastClosesB_sound h
  | .cons _ (.cons es as), _, h => Args.lastClosesB_sound (.cons es as) h
end

/-- A test for `Ok`. -/
def Tail.okB (U : Unicode) : ListKind → Tail → Bool
  | .named, .named l => atomB U l .Identifier
  | .named, .short l => atomB U l .Identifier
  | .sorted, .sorted l => l == "ASC".toList || l == "DESC".toList
  | _, _ => false

theorem Tail.okB_sound {U : Unicode} {k : ListKind} {t : Tail} (h : t.okB U k = true) : t.Ok U k := by
  cases k <;> cases t <;> first | cases h; done | skip
  · exact atomB_sound h
  · exact atomB_sound h
  · simpa [Tail.okB, Tail.Ok] using h

theorem sortedB {k : ListKind} {e : Ex} (h : (k != .sorted || e.closed) = true) : k = .sorted → e.closed = true := by
  rintro rfl
  simpa using h

mutual
/-- A test for `Ok`. -/
def Ex.okB (U : Unicode) (p : Nat) : Ex → Bool
  | .atom l ty => atomB U l ty
  | .pre s as => prefixes.contains s && as.okB U (places s.items)
  | .post x s as => postfixes.contains s && decide (s.level < p) && x.okB U p && x.closesB s.level &&
      (!(s == .call || s == .call0) || x.isPath) && as.okB U (places s.items)
/-- A test for `Ok`. -/
def Exs.okB (U : Unicode) : Place → Exs → Bool
  | .name, .one (.atom l ty) => ty == .Identifier && atomB U l ty
  | .sub b plain next, .one e => e.okB U b && (!plain || !e.beginsNot) && next.all e.closesB
  | .list _, .one e => e.okB U loosest
  | .list k, .cons e es => e.okB U loosest && es.okB U (.list k)
  | .list k, .last e t => e.okB U loosest && t.okB U k && (k != .sorted || e.closed)
  | .list k, .more e t es => e.okB U loosest && t.okB U k && (k != .sorted || e.closed) && es.okB U (.list k)
  | .list2, .cons e es => e.okB U loosest && es.okB U (.list .plain)
  | _, _ => false
/-- A test for `Ok`. -/
def Args.okB (U : Unicode) : List Place → Args → Bool
  | [], .nil => true
  | s :: ss, .cons es as => es.okB U s && as.okB U ss
  | _, _ => false
end

mutual
theorem Ex.okB_sound {U : Unicode} : ∀ (e : Ex) {p : Nat}, e.okB U p = true → e.Ok U p
  | .atom _ _, _, h => atomB_sound h
  | .pre s as, p, h => by
    simp only [Ex.okB, Bool.and_eq_true, List.contains_iff_mem] at h
    exact ⟨h.1, as.okB_sound h.2⟩
  | .post x s as, p, h => by
    simp only [Ex.okB, Bool.and_eq_true, List.contains_iff_mem, decide_eq_true_eq, Bool.or_eq_true, Bool.not_eq_true',
      Bool.or_eq_false_iff, beq_eq_false_iff_ne] at h
    obtain ⟨⟨⟨⟨⟨h1, h2⟩, h3⟩, h4⟩, h5⟩, h6⟩ := h
    refine ⟨h1, h2, x.okB_sound h3, x.closesB_sound h4, fun h => ?_, as.okB_sound h6⟩
    rcases h5 with h5 | h5
    · rcases h with h | h
      · exact absurd h h5.1
      · exact absurd h h5.2
    · exact h5
theorem Exs.okB_sound {U : Unicode} : ∀ (es : Exs) {s : Place}, es.okB U s = true → es.Ok U s
  | .one (.atom l ty), s, h => by
    cases s with
    | name =>
      simp only [Exs.okB, Bool.and_eq_true, beq_iff_eq] at h
      obtain ⟨rfl, h⟩ := h
      exact ⟨_, rfl, atomB_sound h⟩
    | sub b pl n =>
      simp only [Exs.okB, Bool.and_eq_true] at h
      exact ⟨(Ex.atom l ty).okB_sound h.1.1, fun hp => by simpa [hp] using h.1.2, fun f hf => trivial⟩
    | list k => exact (Ex.atom l ty).okB_sound h
    | list2 => cases h
  | .one (.pre s' as), s, h => by
    cases s with
    | name => cases h
    | sub b pl n =>
      simp only [Exs.okB, Bool.and_eq_true] at h
      exact ⟨(Ex.pre s' as).okB_sound h.1.1, fun hp => by simpa [hp] using h.1.2, fun f hf => (Ex.pre s' as).closesB_sound (by
        have := h.2
        rw [hf] at this
        exact this)⟩
    | list k => exact (Ex.pre s' as).okB_sound h
    | list2 => cases h
  | .one (.post x s' as), s, h => by
    cases s with
    | name => cases h
    | sub b pl n =>
      simp only [Exs.okB, Bool.and_eq_true] at h
      exact ⟨(Ex.post x s' as).okB_sound h.1.1, fun hp => by simpa [hp] using h.1.2, fun f hf => (Ex.post x s' as).closesB_sound (by
        have := h.2
        rw [hf] at this
        exact this)⟩
    | list k => exact (Ex.post x s' as).okB_sound h
    | list2 => cases h
  | .cons e es, s, h => by
    cases s with
    | name => cases h
    | sub b pl n => cases h
    | list k =>
      simp only [Exs.okB, Bool.and_eq_true] at h
      exact ⟨e.okB_sound h.1, es.okB_sound h.2⟩
    | list2 =>
      simp only [Exs.okB, Bool.and_eq_true] at h
      exact ⟨e.okB_sound h.1, es.okB_sound h.2⟩
  | .last e t, s, h => by
    cases s with
    | name => cases h
    | sub b pl n => cases h
    | list2 => cases h
    | list k =>
      unfold Exs.okB at h
      simp only [Bool.and_eq_true] at h
      exact ⟨e.okB_sound h.1.1, Tail.okB_sound h.1.2, sortedB h.2⟩
  | .more e t es, s, h => by
    cases s with
    | name => cases h
    | sub b pl n => cases h
    | list2 => cases h
    | list k =>
      unfold Exs.okB at h
      simp only [Bool.and_eq_true] at h
      exact ⟨e.okB_sound h.1.1.1, Tail.okB_sound h.1.1.2, sortedB h.1.2, es.okB_sound h.2⟩
theorem Args.okB_sound {U : Unicode} : ∀ (as : Args) {ss : List Place}, as.okB U ss = true → as.Ok U ss
  | .nil, [], _ => trivial
  | .nil, _ :: _, h => by cases h
  | .cons _ _, [], h => by cases h
  | .cons es as, s :: ss, h => by
    simp only [Args.okB, Bool.and_eq_true] at h
    exact ⟨es.okB_sound h.1, as.okB_sound h.2⟩
end

end Verif.Spec
