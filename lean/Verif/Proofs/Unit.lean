import Verif.Spec.Comments
import Verif.Proofs.Reloc2
/-! The parser state determines the comments of the current token. -/
namespace Verif
open Core Spec

/-- The list ends in a token that is no comment (the end-of-file token). -/
def Ends (toks : List Token) : Prop := ∃ t, toks.getLast? = some t ∧ t.isComment = false

/-- First index after the trailing comments of token `i`. -/
def trailEnd (toks : List Token) (i : Nat) : Nat := i + 1 + (trailingComments toks i).length

/-- The parser stands at a token and its pending comments are the comments of that token. -/
structure PS.WF (toks : List Token) (s : PS) : Prop where
  tok : ∃ t, toks[s.pos]? = some t ∧ t.isComment = false
  lead : s.lead = range (leadStart toks s.pos) s.pos
  trail : s.trail = range (s.pos + 1) (trailEnd toks s.pos)
  le : leadStart toks s.pos ≤ s.pos

theorem PS.WF.inp {toks : List Token} {s : PS} (h : s.WF toks) : s.In toks := by
  obtain ⟨t, h1, _⟩ := h.tok
  exact (List.getElem?_eq_some_iff.1 h1).1

theorem range_self_append {a b c : Nat} (h : a ≤ b) (h' : b ≤ c) : range a c = range a b ++ range b c := by
  unfold range
  have : c - a = (b - a) + (c - b) := by omega
  rw [this, ← List.range'_append_1]
  congr 2
  omega

theorem trailing_eq {line stop : Nat} {ts : List Token} : ∀ idx, 
    (∀ k t, idx ≤ k → ts[k - idx]? = some t → ((k < stop → t.isComment = true) ∧
      (k = stop → t.isComment = false))) → idx ≤ stop →
    trailing line stop idx ts =
      range idx (idx + (ts.takeWhile fun c => c.isComment && c.line == line).length) := by
  induction ts with
  | nil => intro idx _ _; simp [trailing, range]
  | cons t ts ih =>
    intro idx h hle
    have h0 := h idx t (Nat.le_refl _) (by simp)
    simp only [trailing, List.takeWhile_cons]
    by_cases hs : idx < stop
    · have hc := h0.1 hs
      by_cases hl : line = t.line
      · rw [if_pos ⟨hs, hl⟩, ih (idx + 1) ?_ hs]
        · simp only [hc, hl, beq_self_eq_true, Bool.and_self, ↓reduceIte, List.length_cons]
          rw [range_self_append (a := idx) (b := idx + 1) (by omega) (by omega)]
          simp [range]
          omega
        · intro k u hk hu
          refine h k u (by omega) ?_
          have : k - idx = (k - (idx + 1)) + 1 := by omega
          rw [this]; simpa using hu
      · rw [if_neg (by simp [hl])]
        have : ¬ (t.line = line) := fun h => hl h.symm
        simp [this, range]
    · have : idx = stop := by omega
      have hc := h0.2 this
      rw [if_neg (by omega)]
      simp [hc, range]

theorem trailingNew_eq {line : Nat} {ts : List Token} : ∀ idx,
    trailingNew line idx ts =
      range idx (idx + (ts.takeWhile fun c => c.isComment && c.line == line).length) := by
  induction ts with
  | nil => intro idx; simp [trailingNew, range]
  | cons t ts ih =>
    intro idx
    simp only [trailingNew, List.takeWhile_cons]
    by_cases hc : t.isComment = true ∧ line = t.line
    · rw [if_pos hc, ih]
      simp only [hc.1, hc.2, beq_self_eq_true, Bool.and_self, ↓reduceIte, List.length_cons]
      rw [range_self_append (a := idx) (b := idx + 1) (by omega) (by omega)]
      simp [range]
      omega
    · rw [if_neg hc]
      have : (t.isComment && t.line == line) = false := by
        simp only [Bool.and_eq_false_iff, beq_eq_false_iff_ne, ne_eq]
        by_cases h : t.isComment = true
        · right; intro h'; exact hc ⟨h, h'.symm⟩
        · left; simpa using h
      simp [this, range]

/-- All tokens in `[a, b)` are comments. -/
def AllComments (toks : List Token) (a b : Nat) : Prop :=
  ∀ (i : Nat) t, a ≤ i → i < b → toks[i]? = some t → t.isComment = true

theorem takeWhile_length_eq {α : Type} {p : α → Bool} {l : List α} {n : Nat}
    (h : ∀ (i : Nat) x, i < n → l[i]? = some x → p x = true) (hn : n ≤ l.length)
    (h' : ∀ x, l[n]? = some x → p x = false) : (l.takeWhile p).length = n := by
  induction l generalizing n with
  | nil => simp at hn; simp [hn]
  | cons a l ih =>
    cases n with
    | zero =>
      have := h' a (by simp)
      simp [this]
    | succ n =>
      have h0 := h 0 a (by omega) (by simp)
      simp only [List.takeWhile_cons, h0, ↓reduceIte, List.length_cons]
      rw [ih (n := n)]
      · intro i x hi hx; exact h (i + 1) x (by omega) (by simpa using hx)
      · simp at hn; omega
      · intro x hx; exact h' x (by simpa using hx)

theorem commentsBefore_eq {toks : List Token} {p i : Nat} {t : Token} (hp : toks[p]? = some t)
    (ht : t.isComment = false) (hpi : p < i) (hi : i ≤ toks.length) (hc : AllComments toks (p + 1) i) :
    commentsBefore toks i = i - p - 1 := by
  unfold commentsBefore
  have hl : (toks.take i).length = i := by simp; omega
  apply takeWhile_length_eq
  · intro j x hj hx
    rw [List.getElem?_reverse (by rw [hl]; omega), hl] at hx
    rw [List.getElem?_take] at hx
    rw [if_pos (by omega)] at hx
    exact hc _ _ (by omega) (by omega) hx
  · simp; omega
  · intro x hx
    rw [List.getElem?_reverse (by rw [hl]; omega), hl] at hx
    rw [List.getElem?_take] at hx
    rw [if_pos (by omega)] at hx
    have : i - 1 - (i - p - 1) = p := by omega
    rw [this, hp] at hx
    cases hx; exact ht

theorem commentsBefore_all {toks : List Token} {i : Nat} (hi : i ≤ toks.length)
    (hc : AllComments toks 0 i) : commentsBefore toks i = i := by
  unfold commentsBefore
  have hl : (toks.take i).length = i := by simp; omega
  apply takeWhile_length_eq
  · intro j x hj hx
    rw [List.getElem?_reverse (by rw [hl]; omega), hl] at hx
    rw [List.getElem?_take] at hx
    rw [if_pos (by omega)] at hx
    exact hc _ _ (by omega) (by omega) hx
  · simp; omega
  · intro x hx
    rw [List.getElem?_eq_none (by simp; omega)] at hx
    cases hx

theorem leadStart_next {toks : List Token} {p i : Nat} {t : Token} (hp : toks[p]? = some t)
    (ht : t.isComment = false) (hpi : p < i) (hi : i ≤ toks.length) (hc : AllComments toks (p + 1) i) :
    leadStart toks i = trailEnd toks p := by
  unfold leadStart
  dsimp only
  rw [commentsBefore_eq hp ht hpi hi hc, if_neg (by omega)]
  have h1 : i - (i - p - 1) - 1 = p := by omega
  rw [h1]
  unfold trailEnd
  omega

theorem takeWhile_length_le_of {α : Type} {p : α → Bool} {l : List α} {n : Nat} {x : α}
    (h : l[n]? = some x) (hx : p x = false) : (l.takeWhile p).length ≤ n := by
  induction l generalizing n with
  | nil => simp at h
  | cons a l ih =>
    simp only [List.takeWhile_cons]
    split
    · cases n with
      | zero => simp at h; subst h; simp_all
      | succ n => simp at h; have := ih h; simp; omega
    · simp

theorem trailEnd_le {toks : List Token} {p i : Nat} {u : Token} (hpi : p < i)
    (hi : toks[i]? = some u) (hu : u.isComment = false) : trailEnd toks p ≤ i := by
  unfold trailEnd trailingComments
  split
  · simp; omega
  · next t _ =>
    have : (toks.drop (p + 1))[i - p - 1]? = some u := by
      rw [List.getElem?_drop]
      have : p + 1 + (i - p - 1) = i := by omega
      rw [this, hi]
    have := takeWhile_length_le_of (p := fun c : Token => c.isComment && c.line == t.line) this (by simp [hu])
    omega

theorem range_getLast {a b : Nat} : (match (range a b).getLast? with | some n => n + 1 | none => a) = 
    if a < b then b else a := by
  unfold range
  by_cases h : a < b
  · obtain ⟨n, rfl⟩ : ∃ n, b = a + n + 1 := ⟨b - a - 1, by omega⟩
    have : a + n + 1 - a = n + 1 := by omega
    rw [this, List.range'_concat]
    simp [h]
  · have : b - a = 0 := by omega
    simp [this, h]

theorem getOffsetIndex_one {toks : List Token} {s : PS} {i : Nat} 
    (h : getOffsetIndex toks s 1 = .ok i) :
    s.pos < i ∧ i < toks.length ∧ AllComments toks (s.pos + 1) i ∧
      ∃ t, toks[i]? = some t ∧ t.isComment = false := by
  unfold getOffsetIndex at h
  simp only [Nat.one_ne_zero, ↓reduceIte] at h
  split at h
  · next j hj =>
    simp only [Out.ok.injEq] at h
    subst h
    obtain ⟨h1, h2, _, t, h3, h4⟩ := scanFrom_spec _ _ _ _ _ hj
    simp only [List.length_drop] at h2
    refine ⟨by omega, by omega, ?_, t, ?_, h4⟩
    · intro k u hk hki hu
      refine scanFrom_one hj k u hk hki ?_
      rw [List.getElem?_drop]
      have : s.pos + 1 + (k - (s.pos + 1)) = k := by omega
      rw [this, hu]
    · rw [List.getElem?_drop] at h3
      have : s.pos + 1 + (j - (s.pos + 1)) = j := by omega
      rwa [this] at h3
  · split at h <;> cases h

theorem scanFrom_none {offset cnt idx : Nat} {ts : List Token} {x : Token} (hx : x ∈ ts)
    (hc : x.isComment = false) (ho : offset ≤ cnt + 1) : scanFrom offset cnt idx ts ≠ none := by
  induction ts generalizing idx with
  | nil => simp at hx
  | cons a ts ih =>
    simp only [scanFrom]
    split
    · next ha =>
      apply ih
      rcases List.mem_cons.1 hx with rfl | h
      · simp_all
      · exact h
    · simp

theorem drop_eq_nil_of_scan {toks : List Token} (he : Ends toks) {s : PS}
    (h : ∀ i, getOffsetIndex toks s 1 ≠ .ok i) : toks.drop (s.pos + 1) = [] := by
  obtain ⟨t, h1, h2⟩ := he
  rcases hd : toks.drop (s.pos + 1) with _ | ⟨a, l⟩
  · rfl
  · exfalso
    have hm : t ∈ toks.drop (s.pos + 1) := by
      have : (toks.drop (s.pos + 1)).getLast? = some t := by
        rw [List.getLast?_drop, if_neg, h1]
        intro hle
        have : toks.drop (s.pos + 1) = [] := List.drop_eq_nil_of_le hle
        rw [this] at hd; cases hd
      exact List.mem_of_getLast? this
    have := scanFrom_none (offset := 1) (cnt := 0) (idx := s.pos + 1) hm h2 (by omega)
    unfold getOffsetIndex at h
    simp only [Nat.one_ne_zero, ↓reduceIte] at h
    split at h
    · next i _ => exact h i rfl
    · next h' => exact this h'

/-- `next_token` after the next index `i` and the first leading comment are known. -/
def nextWith (toks : List Token) (i a : Nat) : Out PS :=
  match getOffsetIndex toks ⟨i, range a i, []⟩ 1 with
    | .ok next' =>
      match tokAt toks i with
      | .ok t => .ok ⟨i, range a i, trailing t.line next' (i + 1) (toks.drop (i + 1))⟩
      | .err e => .err e
      | .panic p => .panic p
      | .timeout => .timeout
    | _ => .ok ⟨i, range a i, []⟩

theorem nextToken_eq {toks : List Token} {s : PS} {i a : Nat} (hi : getOffsetIndex toks s 1 = .ok i)
    (ha : (match s.trail.getLast? with | some n => n + 1 | none => s.pos + 1) = a) :
    nextToken toks s = nextWith toks i a := by
  unfold nextToken nextWith
  rw [hi]
  cases hg : s.trail.getLast? <;> rw [hg] at ha <;> dsimp only at ha ⊢ <;> subst ha <;> rfl

theorem nextToken_wf {toks : List Token} (he : Ends toks) {s s' : PS} (hs : s.WF toks)
    (h : nextToken toks s = .ok s') :
    s'.WF toks ∧ leadStart toks s'.pos = trailEnd toks s.pos ∧ getOffsetIndex toks s 1 = .ok s'.pos := by
  cases hi : getOffsetIndex toks s 1 with
  | err => unfold nextToken at h; rw [hi] at h; cases h
  | panic => unfold nextToken at h; rw [hi] at h; cases h
  | timeout => unfold nextToken at h; rw [hi] at h; cases h
  | ok i =>
    obtain ⟨h1, h2, h3, t, h4, h5⟩ := getOffsetIndex_one hi
    obtain ⟨u, hu, hu'⟩ := hs.tok
    have hls : leadStart toks i = trailEnd toks s.pos := leadStart_next hu hu' h1 (by omega) h3
    have hle : trailEnd toks s.pos ≤ i := trailEnd_le h1 h4 h5
    have hf : (match s.trail.getLast? with | some n => n + 1 | none => s.pos + 1) = leadStart toks i := by
      rw [hs.trail, range_getLast, hls]
      unfold trailEnd
      split <;> omega
    rw [nextToken_eq hi hf] at h
    unfold nextWith at h
    split at h
    · next j hj =>
      obtain ⟨g1, g2, g3, v, g4, g5⟩ := getOffsetIndex_one hj
      dsimp only at g1 g3
      unfold tokAt at h
      rw [h4] at h
      cases h
      refine ⟨⟨⟨t, h4, h5⟩, rfl, ?_, by dsimp only; omega⟩, hls, rfl⟩
      dsimp only
      rw [trailing_eq]
      · unfold trailEnd trailingComments
        rw [h4]
      · intro k x hk hx
        rw [List.getElem?_drop] at hx
        have : i + 1 + (k - (i + 1)) = k := by omega
        rw [this] at hx
        refine ⟨fun hkj => g3 k x hk hkj hx, ?_⟩
        rintro rfl
        rw [g4] at hx; cases hx; exact g5
      · omega
    · next hj =>
      cases h
      refine ⟨⟨⟨t, h4, h5⟩, rfl, ?_, by dsimp only; omega⟩, hls, rfl⟩
      have := drop_eq_nil_of_scan he hj
      unfold trailEnd trailingComments
      dsimp only at this ⊢
      rw [h4, this]
      simp [range]

theorem leadingComments_spec (toks : List Token) : AllComments toks 0 (Core.leadingComments toks) ∧
    Core.leadingComments toks ≤ toks.length := by
  induction toks with
  | nil => simp [Core.leadingComments, AllComments]
  | cons a l ih =>
    simp only [Core.leadingComments]
    split
    · next h =>
      constructor
      · intro i t _ hi ht
        cases i with
        | zero => simp at ht; subst ht; exact h
        | succ i => simp at ht; exact ih.1 i t (by omega) (by omega) ht
      · simp; exact ih.2
    · constructor
      · intro i t _ hi; omega
      · simp

theorem leadingComments_at {toks : List Token} {t : Token} (h : toks[Core.leadingComments toks]? = some t) :
    t.isComment = false := by
  induction toks with
  | nil => simp at h
  | cons a l ih =>
    simp only [Core.leadingComments] at h
    split at h
    · simp at h; exact ih h
    · simp at h; subst h; simp_all

theorem new_wf {toks : List Token} {s : PS} (h : Core.new toks = .ok s) :
    s.WF toks ∧ leadStart toks s.pos = 0 := by
  unfold Core.new at h
  dsimp only at h
  split at h
  · cases h
  · next t ht =>
    have hl : leadStart toks (Core.leadingComments toks) = 0 := by
      unfold leadStart
      dsimp only
      rw [if_pos (commentsBefore_all (leadingComments_spec toks).2 (leadingComments_spec toks).1)]
    have hc := leadingComments_at ht
    split at h
    · next hn =>
      cases h
      refine ⟨⟨⟨t, ht, hc⟩, by rw [hl], ?_, by dsimp only; omega⟩, hl⟩
      have hlt := (List.getElem?_eq_some_iff.1 ht).1
      have : toks.drop (Core.leadingComments toks + 1) = [] := List.drop_eq_nil_of_le (by omega)
      unfold trailEnd trailingComments
      dsimp only
      rw [ht, this]
      simp [range]
    · cases h
      refine ⟨⟨⟨t, ht, hc⟩, by rw [hl], ?_, by dsimp only; omega⟩, hl⟩
      dsimp only
      rw [trailingNew_eq]
      unfold trailEnd trailingComments
      rw [ht]

theorem trailEnd_le_length {toks : List Token} {i : Nat} (h : i < toks.length) :
    trailEnd toks i ≤ toks.length := by
  unfold trailEnd trailingComments
  rw [List.getElem?_eq_getElem h]
  dsimp only
  have := (List.takeWhile_sublist (l := toks.drop (i + 1))
    (fun c => c.isComment && c.line == toks[i].line)).length_le
  simp at this
  omega

end Verif
