import Verif.Proofs.Respace
import Verif.Spec.Parse
/-! Positions of the tokens of respaced texts. -/
namespace Verif.Lex
open Verif.Spec

/-- The gaps are determined by the text and the literals. -/
theorem interleave_unique : ∀ (lits : List Str), (∀ l ∈ lits, ∃ c b, l = c :: b ∧ isWhitespaceChar c = false) →
    ∀ gaps gaps' : List Str, gaps.length = lits.length + 1 → gaps'.length = lits.length + 1 →
    (∀ g ∈ gaps, AllWs g) → (∀ g ∈ gaps', AllWs g) → interleave gaps lits = interleave gaps' lits → gaps = gaps'
  | [], _, gaps, gaps', h1, h2, _, _, h => by
    match gaps, gaps', h1, h2 with
    | [g], [g'], _, _ => simpa [interleave] using h
  | l :: ls, hl, gaps, gaps', h1, h2, w, w', h => by
    match gaps, gaps', h1, h2 with
    | g :: gs, g' :: gs', h1, h2 =>
      obtain ⟨c, b, rfl, hc⟩ := hl l (by simp)
      simp only [interleave, List.append_assoc, List.cons_append] at h
      have hg : g = g' := by
        have k : ∀ (g g' x y : Str), AllWs g → AllWs g' → g ++ c :: x = g' ++ c :: y → g = g' := by
          intro g
          induction g with
          | nil =>
            intro g' x y _ hw he
            cases g' with
            | nil => rfl
            | cons d g' =>
              simp only [List.nil_append, List.cons_append, List.cons.injEq] at he
              have := hw d (by simp)
              rw [← he.1, hc] at this
              cases this
          | cons d g ih =>
            intro g' x y hw hw' he
            cases g' with
            | nil =>
              simp only [List.nil_append, List.cons_append, List.cons.injEq] at he
              have := hw d (by simp)
              rw [he.1, hc] at this
              cases this
            | cons d' g' =>
              simp only [List.cons_append, List.cons.injEq] at he
              rw [he.1, ih g' x y (fun c hc => hw c (by simp [hc])) (fun c hc => hw' c (by simp [hc])) he.2]
        exact k g g' _ _ (w g (by simp)) (w' g' (by simp)) h
      subst hg
      have h := List.append_cancel_left h
      simp only [List.cons.injEq, true_and] at h
      have h := List.append_cancel_left h
      rw [interleave_unique ls (fun l h => hl l (by simp [h])) gs gs' (by simpa using h1) (by simpa using h2)
        (fun g h => w g (by simp [h])) (fun g h => w' g (by simp [h])) h]

theorem Respaced.shape {prev : Option Str} {gaps gaps' lits : List Str} (h : Respaced prev gaps gaps' lits) :
    gaps.length = lits.length + 1 ∧ gaps'.length = lits.length + 1 ∧ (∀ g ∈ gaps, AllWs g) ∧
      (∀ g ∈ gaps', AllWs g) := by
  induction h with
  | last h h' => exact ⟨rfl, rfl, by simpa using h, by simpa using h'⟩
  | cons h h' _ _ ih =>
    obtain ⟨a, b, c, d⟩ := ih
    refine ⟨by simp [a], by simp [b], ?_, ?_⟩
    · intro g hg
      rcases List.mem_cons.1 hg with rfl | hg
      · exact h
      · exact c g hg
    · intro g hg
      rcases List.mem_cons.1 hg with rfl | hg
      · exact h'
      · exact d g hg

/-- The text before the `k`-th literal. -/
def pre (gs ls : List Str) (k : Nat) : Str := interleave (gs.take (k + 1)) (ls.take k)

theorem pre_between : ∀ (i : Nat) (gaps lits : List Str) (l : Str) (k : Nat), gaps.length = lits.length + 1 →
    lits[i]? = some l →
    pre gaps lits (i + 1 + k) = pre gaps lits i ++ (l ++ pre (gaps.drop (i + 1)) (lits.drop (i + 1)) k)
  | 0, g :: gs, m :: ls, l, k, _, hi => by
    simp only [List.getElem?_cons_zero, Option.some.injEq] at hi
    subst hi
    have : 0 + 1 + k = k + 1 := by omega
    rw [this]
    simp [pre, interleave]
  | i + 1, g :: gs, m :: ls, l, k, hlen, hi => by
    have := pre_between i gs ls l k (by simpa using hlen) (by simpa using hi)
    have e : i + 1 + 1 + k = (i + 1 + k) + 1 := by omega
    rw [e]
    simp only [pre, List.take_succ_cons, interleave, List.drop_succ_cons, List.append_assoc] at this ⊢
    rw [this]
  | _, [], _, _, _, h, _ => by simp at h
  | _, _ :: _, [], _, _, _, h => by simp at h

theorem Respaced.drop {prev : Option Str} {gaps gaps' lits : List Str} (h : Respaced prev gaps gaps' lits) :
    ∀ (i : Nat) (l : Str), lits[i]? = some l →
      Respaced (some l) (gaps.drop (i + 1)) (gaps'.drop (i + 1)) (lits.drop (i + 1)) := by
  induction h with
  | last => intro i l hi; simp at hi
  | cons _ _ _ rest ih =>
    intro i l hi
    cases i with
    | zero =>
      simp only [List.getElem?_cons_zero, Option.some.injEq] at hi
      subst hi
      simpa using rest
    | succ i => simpa using ih i l (by simpa using hi)

theorem Respaced.pre_nil {l : Str} {gs gs' ls : List Str} (h : Respaced (some l) gs gs' ls) {k : Nat} {m : Str}
    (hk : ls[k]? = some m) (hl : ∀ l ∈ ls, l ≠ []) : pre gs ls k = [] ↔ pre gs' ls k = [] := by
  cases h with
  | last => simp at hk
  | @cons _ g g' l' gs gs' ls h h' ok rest =>
    cases k with
    | zero => simpa [pre, interleave] using (ok l rfl).1
    | succ k =>
      have := hl l' (by simp)
      simp [pre, interleave, this]

theorem Respaced.pre_newline : ∀ (k : Nat) {l : Str} {gs gs' ls : List Str}, Respaced (some l) gs gs' ls →
    k < ls.length → (∀ m c, m ≤ k → ls[m]? = some c → IsComment c) →
    ('\n' ∈ pre gs ls k ↔ '\n' ∈ pre gs' ls k) := by
  intro k
  induction k with
  | zero =>
    intro l gs gs' ls h hk hc
    cases h with
    | last => simp at hk
    | cons h h' ok rest =>
      simpa [pre, interleave] using (ok l rfl).2.1 (hc 0 _ (by omega) (by simp))
  | succ k ih =>
    intro l gs gs' ls h hk hc
    cases h with
    | last => simp at hk
    | cons h h' ok rest =>
      have h1 := (ok l rfl).2.1 (hc 0 _ (by omega) (by simp))
      have h2 := ih rest (by simpa using hk) fun m c hm hmc => hc (m + 1) c (by omega) (by simpa using hmc)
      simp only [pre, List.take_succ_cons, interleave, List.mem_append] at h2 ⊢
      rw [h1, h2]

theorem line_eq_iff (p x : Str) : lineAfter p = lineAfter (p ++ x) ↔ '\n' ∉ x := by
  rw [← List.count_eq_zero]
  simp only [lineAfter, List.count_append]
  omega

theorem column_append (p x : Str) (h : '\n' ∉ x) : columnAfter (p ++ x) = columnAfter p + x.length := by
  have hall : ∀ c ∈ x.reverse, decide (c ≠ '\n') = true := by
    intro c hc
    simp only [List.mem_reverse] at hc
    simp only [decide_eq_true_eq]
    rintro rfl
    exact h hc
  simp only [columnAfter, List.reverse_append]
  rw [List.takeWhile_append_of_pos hall]
  simp
  omega

theorem isComment_iff (t : Token) : t.isComment = true ↔ IsComment t.literal := by
  unfold Token.isComment IsComment IsLineComment
  split
  · next r h => rw [h]; simp
  · next r h => rw [h]; simp
  · next r h => rw [h]; simp
  · next h1 h2 h3 =>
    simp only [Bool.false_eq_true, false_iff, not_or, not_exists]
    exact ⟨⟨h1, h2⟩, h3⟩

theorem erase_tokens {o : Out (List Token)} {ls : List Str} (h : erase o = .ok ls) :
    ∃ ts, o = .ok ts ∧ ts.map (·.literal) = ls := by
  cases o with
  | ok ts => simp only [erase, Out.ok.injEq] at h; exact ⟨ts, rfl, h⟩
  | err e => cases h
  | panic e => cases h
  | timeout => cases h

/-- The tokens of a text given by gaps and literals. -/
theorem tokenize_pre {U : Unicode} {gaps lits : List Str} {toks : List Token}
    (h : tokenize U (interleave gaps lits) = .ok toks) (hl : toks.map (·.literal) = lits ++ [[]])
    (hg : gaps.length = lits.length + 1) (hw : ∀ g ∈ gaps, AllWs g) :
    ∃ body, toks = body ++ [Token.eof] ∧ body.map (·.literal) = lits ∧
      (∀ l ∈ lits, ∃ c b, l = c :: b ∧ isWhitespaceChar c = false) ∧
      ∀ i t, body[i]? = some t → t.line = lineAfter (pre gaps lits i) ∧ t.column = columnAfter (pre gaps lits i) := by
  obtain ⟨body, gaps1, rfl, i2, i3, i4, i5, i6⟩ := run_interleave (tokenize_run h) [] [] (by simp [AllWs]) rfl
  have hb : body.map (·.literal) = lits := by
    rw [List.map_append] at hl
    exact (List.append_inj' hl rfl).1
  subst hb
  have hls : ∀ l ∈ body.map (·.literal), ∃ c b, l = c :: b ∧ isWhitespaceChar c = false := by
    intro l hl
    obtain ⟨t, ht, rfl⟩ := List.mem_map.1 hl
    exact i4 t ht
  refine ⟨body, rfl, rfl, hls, ?_⟩
  have : gaps = gaps1 := interleave_unique _ hls gaps gaps1 hg (by simpa using i2) hw i3 (by simpa using i5)
  subst this
  simpa [pre] using i6

theorem pre_length (gaps lits : List Str) (i : Nat) (l : Str) (hlen : gaps.length = lits.length + 1)
    (hi : lits[i]? = some l) : (pre gaps lits i).length ≤ (interleave gaps lits).length := by
  obtain ⟨after, ha⟩ := interleave_take gaps lits i l hlen hi
  rw [ha, pre]
  simp

theorem respaced_relocated {U : Unicode} {gaps gaps' lits : List Str} {toks toks' : List Token}
    (hR : Respaced none gaps gaps' lits)
    (h : tokenize U (interleave gaps lits) = .ok toks) (hl : toks.map (·.literal) = lits ++ [[]])
    (h' : tokenize U (interleave gaps' lits) = .ok toks') (hl' : toks'.map (·.literal) = lits ++ [[]])
    (hs : (interleave gaps lits).length + 1 < usizeMax) (hs' : (interleave gaps' lits).length + 1 < usizeMax) :
    Relocated toks toks' := by
  obtain ⟨r1, r2, r3, r4⟩ := Respaced.shape hR
  obtain ⟨body, rfl, b1, hls, b3⟩ := tokenize_pre h hl r1 r3
  obtain ⟨body', rfl, b1', _, b3'⟩ := tokenize_pre h' hl' r2 r4
  have hlen : body.length = lits.length := by rw [← b1, List.length_map]
  have hlen' : body'.length = lits.length := by rw [← b1', List.length_map]
  have hne : ∀ l ∈ lits, l ≠ [] := by
    intro l hl
    obtain ⟨c, b, rfl, _⟩ := hls l hl
    simp
  have htok : ∀ i t, (body ++ [Token.eof])[i]? = some t → i < lits.length →
      body[i]? = some t ∧ lits[i]? = some t.literal := by
    intro i t ht hi
    rw [List.getElem?_append_left (by omega)] at ht
    exact ⟨ht, by rw [← b1, List.getElem?_map, ht]; rfl⟩
  have htok' : ∀ i t, (body' ++ [Token.eof])[i]? = some t → i < lits.length →
      body'[i]? = some t ∧ lits[i]? = some t.literal := by
    intro i t ht hi
    rw [List.getElem?_append_left (by omega)] at ht
    exact ⟨ht, by rw [← b1', List.getElem?_map, ht]; rfl⟩
  refine ⟨?_, ?_, ?_⟩
  · have : List.Forall₂ (fun a b : Token => a.literal = b.literal) (body ++ [Token.eof]) (body' ++ [Token.eof]) := by
      have := hl.trans hl'.symm
      have k : ∀ xs ys : List Token, xs.map (·.literal) = ys.map (·.literal) →
          List.Forall₂ (fun a b : Token => a.literal = b.literal) xs ys := by
        intro xs
        induction xs with
        | nil => intro ys h; cases ys with
          | nil => exact .nil
          | cons y ys => cases h
        | cons x xs ih => intro ys h; cases ys with
          | nil => cases h
          | cons y ys =>
            simp only [List.map_cons, List.cons.injEq] at h
            exact .cons h.1 (ih ys h.2)
      exact k _ _ this
    exact this.imp fun a b h => by simp [SameUpToCase, h]
  · intro i j a b a' b' ho ha hb k1 k2 k3 k4
    have hj : j < lits.length := by
      have h1 := (List.getElem?_eq_some_iff.1 k2).1
      rcases Nat.lt_or_ge j lits.length with h | h
      · exact h
      · have : j = body.length := by simp at h1; omega
        subst this
        simp at k2
        subst k2
        cases hb
    have hi : i < lits.length := by have := ho.1; omega
    obtain ⟨a1, a2⟩ := htok i a k1 hi
    obtain ⟨c1, c2⟩ := htok j b k2 hj
    obtain ⟨a1', a2'⟩ := htok' i a' k3 hi
    obtain ⟨c1', c2'⟩ := htok' j b' k4 hj
    have ej : j = i + 1 + (j - (i + 1)) := by have := ho.1; omega
    have hd := Respaced.drop hR i _ a2
    have hn := Respaced.pre_newline (j - (i + 1)) hd (by simp; omega) (by
      intro m c hm hmc
      rw [List.getElem?_drop] at hmc
      have hlt : i + 1 + m < lits.length := by omega
      obtain ⟨t, ht⟩ : ∃ t, body[i + 1 + m]? = some t := ⟨_, List.getElem?_eq_getElem (by omega)⟩
      have hc' : lits[i + 1 + m]? = some t.literal := by rw [← b1, List.getElem?_map, ht]; rfl
      rw [hc'] at hmc
      cases hmc
      rw [← isComment_iff]
      by_cases he : i + 1 + m = j
      · rw [he, c1] at ht
        cases ht
        exact hb
      · exact ho.2 (i + 1 + m) _ (by omega) (by omega) (by
          rw [List.getElem?_append_left (by omega)]; exact ht))
    have hal : a'.literal = a.literal := by rw [a2] at a2'; exact (Option.some.inj a2').symm
    unfold SameLine
    rw [(b3 i a a1).1, (b3 j b c1).1, (b3' i a' a1').1, (b3' j b' c1').1, ej,
      pre_between i gaps lits _ _ r1 a2, pre_between i gaps' lits _ _ r2 a2', line_eq_iff, line_eq_iff, hal]
    simp only [List.mem_append, hn]
  · intro i j a b a' b' ho ha hb k1 k2 k3 k4
    have hi : i < lits.length := by
      have h1 := (List.getElem?_eq_some_iff.1 k2).1
      have := ho.1
      simp at h1; omega
    obtain ⟨a1, a2⟩ := htok i a k1 hi
    obtain ⟨a1', a2'⟩ := htok' i a' k3 hi
    have hal : a'.literal = a.literal := by rw [a2] at a2'; exact (Option.some.inj a2').symm
    rcases Nat.lt_or_ge j lits.length with hj | hj
    · obtain ⟨c1, c2⟩ := htok j b k2 hj
      obtain ⟨c1', c2'⟩ := htok' j b' k4 hj
      have ej : j = i + 1 + (j - (i + 1)) := by have := ho.1; omega
      have hd := Respaced.drop hR i _ a2
      have hn := Respaced.pre_nil hd (k := j - (i + 1)) (m := b.literal) (by
        rw [List.getElem?_drop, ← ej]; exact c2) (fun l hl => hne l (List.mem_of_mem_drop hl))
      have key : ∀ p lit x : Str, (lineAfter p = lineAfter (p ++ (lit ++ x)) ∧
          columnAfter p + lit.length = columnAfter (p ++ (lit ++ x))) ↔ ('\n' ∉ lit ∧ x = []) := by
        intro p lit x
        rw [line_eq_iff]
        constructor
        · rintro ⟨h1, h2⟩
          rw [column_append _ _ h1] at h2
          simp at h1 h2
          exact ⟨h1.1, h2⟩
        · rintro ⟨h1, rfl⟩
          rw [List.append_nil]
          exact ⟨h1, (column_append _ _ h1).symm⟩
      unfold Touches
      rw [(b3 i a a1).1, (b3 j b c1).1, (b3' i a' a1').1, (b3' j b' c1').1,
        (b3 i a a1).2, (b3 j b c1).2, (b3' i a' a1').2, (b3' j b' c1').2, ej,
        pre_between i gaps lits _ _ r1 a2, pre_between i gaps' lits _ _ r2 a2', hal, key, key, hn]
    · -- the second token is the EOF token
      have e1 : j = body.length := by
        have h1 := (List.getElem?_eq_some_iff.1 k2).1
        simp at h1; omega
      have e2 : j = body'.length := by omega
      have hbe : b = Token.eof := by subst e1; simpa using k2.symm
      have hbe' : b' = Token.eof := by rw [e2] at k4; simpa using k4.symm
      subst hbe hbe'
      have l1 : a.line ≠ usizeMax := by
        rw [(b3 i a a1).1]
        have := pre_length gaps lits i _ r1 a2
        have := List.count_le_length (a := '\n') (l := pre gaps lits i)
        unfold lineAfter
        omega
      have l2 : a'.line ≠ usizeMax := by
        rw [(b3' i a' a1').1]
        have := pre_length gaps' lits i _ r2 a2'
        have := List.count_le_length (a := '\n') (l := pre gaps' lits i)
        unfold lineAfter
        omega
      exact ⟨fun h => absurd h.1 l1, fun h => absurd h.1 l2⟩

end Verif.Lex
