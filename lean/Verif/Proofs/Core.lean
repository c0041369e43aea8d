import Verif.Model.Lib
import Mathlib.Data.List.Basic
/-! Facts about the core of the parser: token access and comment ranges. -/
namespace Verif
open Core

/-- The parser state points at a token of the list. -/
def PS.In (toks : List Token) (s : PS) : Prop := s.pos < toks.length

theorem scanFrom_spec (offset cnt idx : Nat) (ts : List Token) (i : Nat)
    (h : scanFrom offset cnt idx ts = some i) :
    idx ≤ i ∧ i < idx + ts.length ∧ offset ≤ cnt + (i - idx + 1) ∧
      ∃ t, ts[i - idx]? = some t ∧ t.isComment = false := by
  induction ts generalizing cnt idx with
  | nil => simp [scanFrom] at h
  | cons t ts ih =>
    simp only [scanFrom] at h
    split at h
    · have := ih _ _ h
      obtain ⟨h1, h2, h3, u, h4, h5⟩ := this
      simp only [List.length_cons]
      refine ⟨by omega, by omega, by omega, u, ?_, h5⟩
      rw [show i - idx = (i - (idx + 1)) + 1 by omega]
      simpa using h4
    · rename_i hc
      split at h
      · obtain rfl : idx = i := by simpa using h
        refine ⟨by omega, by simp, by omega, t, by simp, by simpa using hc⟩
      · have := ih _ _ h
        obtain ⟨h1, h2, h3, u, h4, h5⟩ := this
        simp only [List.length_cons]
        refine ⟨by omega, by omega, by omega, u, ?_, h5⟩
        rw [show i - idx = (i - (idx + 1)) + 1 by omega]
        simpa using h4

/-- What `get_offset_index` can do. -/
theorem getOffsetIndex_cases (toks : List Token) (s : PS) (h : s.In toks) (n : Nat) :
    (∃ i, getOffsetIndex toks s n = .ok i ∧ s.pos + n ≤ i ∧ i < toks.length ∧
      (n = 0 → i = s.pos) ∧ (0 < n → ∃ t, toks[i]? = some t ∧ t.isComment = false)) ∨
    (0 < n ∧ ∃ t, toks.getLast? = some t ∧
      getOffsetIndex toks s n = .err ⟨t.line, t.column, .followedByEof⟩) := by
  unfold getOffsetIndex
  split
  · left; rename_i h0; subst h0; exact ⟨_, rfl, by simp, h, fun _ => rfl, by simp⟩
  · rename_i hn
    split
    · rename_i i hi
      left
      obtain ⟨h1, h2, h3, t, h4, h5⟩ := scanFrom_spec _ _ _ _ _ hi
      simp only [List.length_drop] at h2
      refine ⟨i, rfl, by omega, by omega, by omega, fun _ => ⟨t, ?_, h5⟩⟩
      rw [List.getElem?_drop] at h4
      rwa [show s.pos + 1 + (i - (s.pos + 1)) = i by omega] at h4
    · right
      have : toks ≠ [] := by intro h'; subst h'; simp [PS.In] at h
      rw [List.getLast?_eq_some_getLast this]
      exact ⟨by omega, _, rfl, rfl⟩

theorem getToken_cases (toks : List Token) (s : PS) (h : s.In toks) (n : Nat) :
    (∃ i t, getOffsetIndex toks s n = .ok i ∧ getToken toks s n = .ok t ∧ toks[i]? = some t ∧
      s.pos + n ≤ i ∧ i < toks.length ∧ (n = 0 → i = s.pos) ∧ (0 < n → t.isComment = false)) ∨
    (0 < n ∧ ∃ t, toks.getLast? = some t ∧
      getOffsetIndex toks s n = .err ⟨t.line, t.column, .followedByEof⟩ ∧
      getToken toks s n = .err ⟨t.line, t.column, .followedByEof⟩) := by
  rcases getOffsetIndex_cases toks s h n with ⟨i, h1, h2, h3, h4, h5⟩ | ⟨h1, t, h2, h3⟩
  · left
    refine ⟨i, toks[i], h1, ?_, by simp [h3], h2, h3, h4, fun hn => ?_⟩
    · simp [getToken, h1, tokAt, h3]
    · obtain ⟨t, ht, hc⟩ := h5 hn
      simp [h3] at ht
      rw [ht]; exact hc
  · right
    exact ⟨h1, t, h2, h3, by simp [getToken, h3]⟩

theorem nextToken_cases (toks : List Token) (s : PS) (h : s.In toks) :
    (∃ s', nextToken toks s = .ok s' ∧ getOffsetIndex toks s 1 = .ok s'.pos ∧ s.pos < s'.pos ∧
      s'.In toks) ∨
    (∃ t, toks.getLast? = some t ∧
      nextToken toks s = .err ⟨t.line, t.column, .followedByEof⟩) := by
  unfold nextToken
  rcases getOffsetIndex_cases toks s h 1 with ⟨i, h1, h2, h3, h4, h5⟩ | ⟨h1, t, h2, h3⟩
  · left
    rw [h1]
    dsimp only
    generalize (range _ i) = lead
    have hin : PS.In toks ⟨i, lead, []⟩ := h3
    rcases getOffsetIndex_cases toks _ hin 1 with ⟨j, g1, g2, g3, g4, g5⟩ | ⟨g1, t, g2, g3⟩
    · rw [g1]
      simp only [tokAt, h3, List.getElem?_eq_getElem]
      exact ⟨_, rfl, rfl, by dsimp only; omega, h3⟩
    · rw [g3]
      exact ⟨_, rfl, rfl, by dsimp only; omega, h3⟩
  · right
    rw [h3]
    exact ⟨t, h2, rfl⟩

theorem classify_ne_timeout (U : Unicode) (toks : List Token) (s : PS) (h : s.In toks) (t : Token) :
    classify U toks s t ≠ .timeout := by
  unfold classify
  rcases getToken_cases toks s h 1 with ⟨i, u, _, h1, _⟩ | ⟨_, u, _, _, h1⟩ <;> rw [h1] <;>
    (repeat' split) <;> simp_all

theorem attachComments_ne_timeout (toks : List Token) (s : PS) (n : Node) :
    attachComments toks s n ≠ .timeout := by
  unfold attachComments
  split <;> simp

theorem construct_ne_timeout (U : Unicode) (toks : List Token) (s : PS) (h : s.In toks)
    (nt : NodeType) : construct U toks s nt ≠ .timeout := by
  unfold construct
  rcases getToken_cases toks s h 0 with ⟨i, u, _, h1, _⟩ | ⟨h0, _⟩
  · rw [h1]
    dsimp only
    split
    · exact attachComments_ne_timeout _ _ _
    · split
      · have := classify_ne_timeout U toks s h u
        split <;> simp_all
        exact attachComments_ne_timeout _ _ _
      · exact attachComments_ne_timeout _ _ _
  · omega

theorem getToken_ne_timeout (toks : List Token) (s : PS) (h : s.In toks) (n : Nat) :
    getToken toks s n ≠ .timeout := by
  rcases getToken_cases toks s h n with ⟨i, u, _, h1, _⟩ | ⟨_, u, _, _, h1⟩ <;> rw [h1] <;> simp

theorem getPrecedence_ne_timeout (U : Unicode) (toks : List Token) (s : PS) (h : s.In toks) (n : Nat) :
    getPrecedence U toks s n ≠ .timeout := by
  unfold getPrecedence
  rcases getToken_cases toks s h n with ⟨i, u, _, h1, _⟩ | ⟨_, u, _, _, h1⟩ <;> rw [h1] <;>
    simp only [ne_eq]
  · split
    · rcases getToken_cases toks s h (n+1) with ⟨i, u, _, h1, _⟩ | ⟨_, u, _, _, h1⟩ <;> rw [h1] <;>
      simp only <;> (repeat' split) <;> simp
    · simp
  · simp

end Verif
