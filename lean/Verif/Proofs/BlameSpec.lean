import Verif.Proofs.Blame
import Verif.Proofs.Reloc2
import Verif.Spec.Message
import Verif.Model.Message
/-! Justified errors in the vocabulary of `Spec/Message.lean`. -/
namespace Verif.Blame
open Core Interp Spec

variable {U : Unicode} {toks : List Token}

theorem scan_shiftN (o c i k : Nat) (ts : List Token) : scanFrom (o + k) (c + k) i ts = scanFrom o c i ts := by
  induction k with
  | zero => rfl
  | succ k ih => rw [← ih]; exact scan_shift _ _ _ _

theorem scan_step {o : Nat} {ts : List Token} : ∀ {c idx j : Nat}, c ≤ o → scanFrom (o + 1) c idx ts = some j →
    scanFrom (o + 2) c idx ts = scanFrom 1 0 (j + 1) (ts.drop (j + 1 - idx)) := by
  induction ts with
  | nil => intro c idx j _ h; simp [scanFrom] at h
  | cons t ts ih =>
    intro c idx j hc h
    simp only [scanFrom] at h ⊢
    split at h
    · next ht =>
      have hle := (scanFrom_spec _ _ _ _ _ h).1
      rw [if_pos ht, ih hc h, show j + 1 - idx = (j + 1 - (idx + 1)) + 1 by omega, List.drop_succ_cons]
    · next ht =>
      rw [if_neg ht, if_neg (by omega)]
      split at h
      · cases h
        have : c = o := by omega
        subst this
        rw [show idx + 1 - idx = 1 by omega, List.drop_succ_cons, List.drop_zero,
          show c + 2 = 1 + (c + 1) by omega]
        have := scan_shiftN 1 0 (idx + 1) (c + 1) ts
        rwa [Nat.zero_add] at this
      · have hle := (scanFrom_spec _ _ _ _ _ h).1
        rw [ih (by omega) h, show j + 1 - idx = (j + 1 - (idx + 1)) + 1 by omega, List.drop_succ_cons]

theorem offset_next {ps : PS} {n j : Nat} (h : getOffsetIndex toks ps n = .ok j) :
    getOffsetIndex toks ps (n + 1) = getOffsetIndex toks ⟨j, [], []⟩ 1 := by
  cases n with
  | zero =>
    simp only [getOffsetIndex, if_true] at h
    cases h
    rfl
  | succ n =>
    have hs := scan_of_offset h
    have hle := (scanFrom_spec _ _ _ _ _ hs).1
    unfold getOffsetIndex
    simp only [Nat.add_eq_zero_iff, Nat.one_ne_zero, and_false, if_false]
    rw [scan_step (by omega) hs, List.drop_drop, show ps.pos + 1 + (j + 1 - (ps.pos + 1)) = j + 1 by omega]

theorem token_index {ps : PS} {n : Nat} {t : Token} (h : getToken toks ps n = .ok t) :
    ∃ i, getOffsetIndex toks ps n = .ok i ∧ toks[i]? = some t := by
  unfold getToken at h
  split at h
  · next i hi =>
    refine ⟨i, hi, ?_⟩
    unfold tokAt at h
    split at h
    · next hh => cases h; exact hh
    · cases h
  · cases h
  · cases h
  · cases h

theorem scan_filter {k : Nat} {ts : List Token} : ∀ {c idx i : Nat}, scanFrom (c + 1 + k) c idx ts = some i →
    (ts.filter fun t => !t.isComment)[k]? = ts[i - idx]? := by
  induction ts generalizing k with
  | nil => intro c idx i h; simp [scanFrom] at h
  | cons t ts ih =>
    intro c idx i h
    simp only [scanFrom] at h
    split at h
    · next ht =>
      have hle := (scanFrom_spec _ _ _ _ _ h).1
      rw [List.filter_cons_of_neg (by simp [ht]), ih h, show i - idx = (i - (idx + 1)) + 1 by omega,
        List.getElem?_cons_succ]
    · next ht =>
      rw [List.filter_cons_of_pos (by simpa using ht)]
      split at h
      · cases h
        have : k = 0 := by omega
        subst this
        simp
      · cases k with
        | zero => omega
        | succ k =>
          have hle := (scanFrom_spec _ _ _ _ _ h).1
          rw [show c + 1 + (k + 1) = (c + 1) + 1 + k by omega] at h
          rw [List.getElem?_cons_succ, ih h, show i - idx = (i - (idx + 1)) + 1 by omega, List.getElem?_cons_succ]

theorem ahead_of_token {ps : PS} {k : Nat} {t : Token} (h : getToken toks ps (k + 1) = .ok t) :
    (ahead toks ps.pos)[k]? = some t := by
  obtain ⟨i, h1, h2⟩ := token_index h
  have hs := scan_of_offset h1
  have hle := (scanFrom_spec _ _ _ _ _ hs).1
  rw [show k + 1 = 0 + 1 + k by omega] at hs
  rw [ahead, scan_filter hs, List.getElem?_drop, show ps.pos + 1 + (i - (ps.pos + 1)) = i by omega]
  exact h2

theorem token_zero {ps : PS} {t : Token} (h : getToken toks ps 0 = .ok t) : toks[ps.pos]? = some t := by
  obtain ⟨i, h1, h2⟩ := token_index h
  simp only [getOffsetIndex, if_true] at h1
  cases h1
  exact h2

/-- Words and keyword constants. -/
theorem noneOf {t : Token} {ks : List Kw} {ws : List String} (h : t.inKws U ks = false)
    (hw : ws.all (fun w => ks.any fun k => k.lit == w.toList) = true) : NoneOf U t ws := by
  intro w hm he
  simp only [List.all_eq_true, List.any_eq_true, beq_iff_eq] at hw
  obtain ⟨k, hk, e⟩ := hw w hm
  simp only [Token.inKws, List.any_eq_false, Bool.not_eq_true, beq_eq_false_iff_ne] at h
  exact h k hk (he.trans e.symm)

theorem isWord {t : Token} {k : Kw} {w : String} (h : t.inKws U [k] = true) (e : k.lit = w.toList) : Reads U t w := by
  simp only [Token.inKws, List.any_cons, List.any_nil, Bool.or_false, beq_iff_eq] at h
  exact h.trans e

/-- Facts about the five tokens ahead. -/
theorem ahead_five {ps : PS} {ks : List Kw} {ws : List String}
    (h : ∀ i ∈ [1, 2, 3, 4, 5], (Fact.tok (.lit i) ks false).Holds U toks (fun _ => .unit) ps)
    (hw : ws.all (fun w => ks.any fun k => k.lit == w.toList) = true) :
    5 ≤ (ahead toks ps.pos).length ∧ ∀ u ∈ (ahead toks ps.pos).take 5, NoneOf U u ws := by
  have key : ∀ i, i < 5 → ∃ t, (ahead toks ps.pos)[i]? = some t ∧ NoneOf U t ws := by
    intro i hi
    obtain ⟨n, t, h1, h2, h3⟩ := h (i + 1) (by
      have : i = 0 ∨ i = 1 ∨ i = 2 ∨ i = 3 ∨ i = 4 := by omega
      rcases this with rfl | rfl | rfl | rfl | rfl <;> simp)
    cases h1
    exact ⟨t, ahead_of_token h2, noneOf h3 hw⟩
  constructor
  · obtain ⟨t, h1, _⟩ := key 4 (by omega)
    have := (List.getElem?_eq_some_iff.1 h1).1
    omega
  · intro u hu
    obtain ⟨i, hi⟩ := List.mem_iff_getElem?.1 hu
    rw [List.getElem?_take] at hi
    split at hi
    · next hlt =>
      obtain ⟨t, h1, h2⟩ := key i hlt
      rw [h1] at hi; cases hi
      exact h2
    · cases hi

theorem debugToken_eq (esc : Char → Str) (t : Token) : Verif.Message.debugToken esc t = showToken esc t := by
  have h : ∀ n, Verif.Message.decimal n = (toString n).toList := by
    intro n
    simp [Verif.Message.decimal, toString, Nat.repr]
  unfold Verif.Message.debugToken showToken
  rw [h, h]

theorem text_long (esc : Char → Str) {l c n : Nat} {s x : Str} (h : Verif.Message.template n = (x, true)) :
    Verif.Message.text esc ⟨l, c, .site n s⟩ = x ++ if true then showToken esc ⟨l, c, s⟩ else [] := by
  simp only [Verif.Message.text, h, if_true, debugToken_eq]

theorem text_short (esc : Char → Str) {l c n : Nat} {s x : Str} {t : Token}
    (h : Verif.Message.template n = (x, false)) :
    Verif.Message.text esc ⟨l, c, .site n s⟩ = x ++ if false then showToken esc t else [] := by
  simp only [Verif.Message.text, h, Bool.false_eq_true, if_false]

theorem mem_of_lookup {α : Type} {n : Nat} {a : α} : ∀ {l : List (Nat × α)}, l.lookup n = some a → (n, a) ∈ l
  | [], h => by cases h
  | (m, b) :: l, h => by
    simp only [List.lookup_cons] at h
    split at h
    · next e => cases h; rw [beq_iff_eq] at e; subst e; exact .head _
    · exact .tail _ (mem_of_lookup h)

theorem mem_of_claim {n k : Nat} {l : List Fact} (h : claim n = .facts k l) : (n, .facts k l) ∈ claims := by
  unfold claim at h
  cases hl : claims.lookup n with
  | none => rw [hl] at h; cases h
  | some c =>
    rw [hl] at h
    cases h
    exact mem_of_lookup hl

/-- A justified error tells the truth. -/
theorem Good.tells {e : Err} (esc : Char → Str) (h : Good U toks e) :
    ∃ m ∈ messages, ∃ i t, Tells U esc toks e (Verif.Message.text esc e) m i t := by
  cases h with
  | @eof t h =>
    refine ⟨_, .head _, toks.length - 1, t, ?_, rfl, rfl, by simp [Verif.Message.text], ?_⟩
    · rw [← List.getLast?_eq_getElem?]; exact h
    · have : toks ≠ [] := by rintro rfl; simp at h
      have := List.length_pos_iff.2 this
      show toks.length - 1 + 1 = toks.length
      omega
  | @prec ps n a t ha hn ht h =>
    obtain ⟨j, h1, h2⟩ := token_index ha
    obtain ⟨i, h3, h4⟩ := token_index ht
    rw [offset_next h1] at h3
    refine ⟨_, .tail _ (.tail _ (.head _)), i, t, h4, rfl, rfl, ?_, ?_, j, a, offset_one_between h3, h2, ?_⟩
    · exact text_long esc rfl
    · exact noneOf h (by decide)
    · exact isWord hn (by decide)
  | @site ps n k l t hc ht h =>
    obtain ⟨i, h1, h2⟩ := token_index ht
    have hi : k = 0 → i = ps.pos := by
      rintro rfl
      simp only [getOffsetIndex, if_true] at h1
      cases h1; rfl
    have fact : ∀ {ks : List Kw} {b : Bool}, Fact.tok (.lit k) ks b ∈ l → t.inKws U ks = b := by
      intro ks b hm
      obtain ⟨m, u, e1, e2, e3⟩ := h _ hm (fun _ => .unit) rfl
      cases e1
      rw [ht] at e2; cases e2
      exact e3
    have five : ∀ {ks : List Kw} {ws : List String}, k = 0 →
        (∀ j ∈ [1, 2, 3, 4, 5], Fact.tok (.lit j) ks false ∈ l) →
        ws.all (fun w => ks.any fun k => k.lit == w.toList) = true →
        5 ≤ (ahead toks i).length ∧ ∀ u ∈ (ahead toks i).take 5, NoneOf U u ws := by
      intro ks ws hk hm hw
      rw [hi hk]
      exact ahead_five (fun j hj => h _ (hm j hj) _ rfl) hw
    have hm := mem_of_claim hc
    simp only [claims, List.mem_cons, List.not_mem_nil, or_false, Prod.mk.injEq] at hm
    rcases hm with hm | hm | hm | hm | hm | hm | hm | hm | hm | hm
    all_goals obtain ⟨rfl, hm⟩ := hm; cases hm
    · refine ⟨_, .tail _ (.head _), i, t, h2, rfl, rfl, text_short esc rfl, ?_⟩
      exact noneOf (fact (.head _)) (by decide)
    · refine ⟨_, .tail _ (.tail _ (.tail _ (.head _))), i, t, h2, rfl, rfl, ?_, ?_, ?_⟩
      · exact text_long esc rfl
      · exact isWord (fact (.head _)) (by decide)
      · exact five rfl (fun j hj => .tail _ (List.mem_map.2 ⟨j, hj, rfl⟩)) (by decide)
    · refine ⟨_, .tail _ (.tail _ (.tail _ (.tail _ (.head _)))), i, t, h2, rfl, rfl, ?_, ?_, ?_⟩
      · exact text_long esc rfl
      · exact isWord (fact (.head _)) (by decide)
      · exact five rfl (fun j hj => .tail _ (List.mem_map.2 ⟨j, hj, rfl⟩)) (by decide)
    · refine ⟨_, .tail _ (.head _), i, t, h2, rfl, rfl, text_short esc rfl, ?_⟩
      exact noneOf (fact (.head _)) (by decide)
    · refine ⟨_, .tail _ (.tail _ (.tail _ (.tail _ (.tail _ (.head _))))), i, t, h2, rfl, rfl, ?_, ?_⟩
      · exact text_long esc rfl
      · exact noneOf (fact (.head _)) (by decide)
    · refine ⟨_, .tail _ (.tail _ (.tail _ (.tail _ (.tail _ (.tail _ (.head _)))))), i, t, h2, rfl, rfl, ?_, ?_⟩
      · exact text_long esc rfl
      · exact noneOf (fact (.head _)) (by decide)
    · refine ⟨_, .tail _ (.tail _ (.tail _ (.tail _ (.tail _ (.tail _ (.tail _ (.head _))))))), i, t, h2, rfl, rfl, ?_, ?_⟩
      · exact text_long esc rfl
      · exact noneOf (fact (.head _)) (by decide)
    · refine ⟨_, .tail _ (.tail _ (.tail _ (.tail _ (.tail _ (.tail _ (.tail _ (.tail _ (.head _)))))))), i, t, h2, rfl, rfl, ?_, ?_⟩
      · exact text_long esc rfl
      · exact noneOf (fact (.head _)) (by decide)
    · refine ⟨_, .tail _ (.tail _ (.tail _ (.tail _ (.tail _ (.tail _ (.tail _ (.tail _ (.tail _ (.head _))))))))), i, t, h2, rfl, rfl, ?_, ?_⟩
      · exact text_long esc rfl
      · exact noneOf (fact (.head _)) (by decide)
    · refine ⟨_, .tail _ (.tail _ (.tail _ (.tail _ (.tail _ (.tail _ (.tail _ (.tail _ (.tail _ (.tail _ (.head _)))))))))), i, t, h2, rfl, rfl, ?_, trivial⟩
      · exact text_long esc rfl

end Verif.Blame
