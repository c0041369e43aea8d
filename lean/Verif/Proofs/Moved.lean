import Verif.Proofs.LexerRun
import Verif.Proofs.Reloc2
/-! Tokens moved as a whole (C42). -/
namespace Verif
open Spec

theorem moved_relocated {U : Unicode} {p b : Str} {tb : List Token} (hb : tokenize U b = .ok (tb ++ [Token.eof]))
    (hne : ∀ t ∈ tb, t.literal ≠ []) (hlen : p.length + b.length + 1 < usizeMax) :
    Relocated (tb ++ [Token.eof]) (tb.map (moveAfter p) ++ [Token.eof]) := by
  have hpos : ∀ t ∈ tb, 1 ≤ t.line ∧ t.line + p.count '\n' < usizeMax := by
    intro t ht
    obtain ⟨_, before, after, _, _, _, _, ⟨h1, h2, _⟩, _⟩ := Lex.mem_token_origin hb (List.mem_append_left _ ht)
      (fun h => hne t ht (by rw [h]; rfl))
    have h3 : before.count '\n' ≤ before.length := List.count_le_length
    have h4 : p.count '\n' ≤ p.length := List.count_le_length
    have h5 := congrArg List.length h1
    simp only [List.length_append] at h5
    unfold lineAfter at h2
    omega
  have hget : ∀ (i : Nat) (t t' : Token), (tb ++ [Token.eof])[i]? = some t →
      (tb.map (moveAfter p) ++ [Token.eof])[i]? = some t' →
      (t ∈ tb ∧ t' = moveAfter p t ∧ i < tb.length) ∨ (t = Token.eof ∧ t' = Token.eof ∧ i = tb.length) := by
    intro i t t' h h'
    by_cases hi : i < tb.length
    · rw [List.getElem?_append_left hi] at h
      rw [List.getElem?_append_left (by simpa using hi), List.getElem?_map, h] at h'
      exact .inl ⟨List.mem_of_getElem? h, by simpa using h'.symm, hi⟩
    · have h1 := (List.getElem?_eq_some_iff.1 h).1
      rw [List.length_append, List.length_singleton] at h1
      have : i = tb.length := by omega
      subst this
      rw [List.getElem?_append_right (by omega)] at h
      rw [List.getElem?_append_right (by simp)] at h'
      simp at h h'
      exact .inr ⟨h.symm, h'.symm, rfl⟩
  refine ⟨?_, ?_, ?_⟩
  · have : List.Forall₂ SameUpToCase tb (tb.map (moveAfter p)) := by
      clear hget hpos hb hne
      induction tb with
      | nil => exact .nil
      | cons t ts ih => exact .cons rfl ih
    exact List.rel_append this (.cons rfl .nil)
  · intro i j a c a' c' ho hac hcc k1 k2 k3 k4
    rcases hget j c c' k2 k4 with ⟨h1, h2, h3⟩ | ⟨h1, _, _⟩
    · rcases hget i a a' k1 k3 with ⟨h4, h5, _⟩ | ⟨_, _, h6⟩
      · subst h2 h5; simp [SameLine, moveAfter]
      · have := ho.1; omega
    · subst h1; cases hcc
  · intro i j a c a' c' ho hac hcc k1 k2 k3 k4
    rcases hget i a a' k1 k3 with ⟨h4, h5, _⟩ | ⟨_, _, h6⟩
    · subst h5
      rcases hget j c c' k2 k4 with ⟨h1, h2, h3⟩ | ⟨h1, h2, _⟩
      · subst h2
        simp only [Touches, moveAfter]
        constructor
        · rintro ⟨e1, e2⟩
          rw [e1]
          refine ⟨rfl, ?_⟩
          split <;> omega
        · rintro ⟨e1, e2⟩
          have e1 : a.line = c.line := by omega
          rw [e1] at e2
          refine ⟨e1, ?_⟩
          split at e2 <;> omega
      · subst h1 h2
        obtain ⟨g1, g2⟩ := hpos a h4
        simp only [Touches, moveAfter, Token.eof]
        constructor <;> rintro ⟨e, _⟩ <;> omega
    · have h1 := (List.getElem?_eq_some_iff.1 k2).1
      have := ho.1
      rw [List.length_append, List.length_singleton] at h1
      omega

end Verif
