import Verif.Proofs.Respace2
/-! Blanks in the place of comments. -/
namespace Verif.Lex
open Verif.Spec

theorem blank_ws (l : Str) : AllWs (blank l) := by
  intro c hc
  obtain ⟨d, _, rfl⟩ := List.mem_map.1 hc
  split
  · next h => subst h; decide
  · decide

theorem advanceAll_blank (l : Str) : ∀ p, advanceAll p (blank l) = advanceAll p l := by
  induction l with
  | nil => intro p; rfl
  | cons c l ih =>
    intro p
    have : advance p (if c = '\n' then c else ' ') = advance p c := by
      unfold advance
      by_cases h : c = '\n'
      · simp [h]
      · simp [h]
    simp only [advanceAll, blank, List.map_cons, List.foldl_cons] at ih ⊢
    rw [this]
    exact ih _

theorem blankComment_of {l : Str} (h : IsComment l) : blankComment l = blank l := by
  rcases h with (⟨r, rfl⟩ | ⟨r, rfl⟩) | ⟨r, rfl⟩ <;> rfl

theorem blankComment_not {l : Str} (h : ¬ IsComment l) : blankComment l = l := by
  unfold blankComment
  split
  · exact absurd (.inl (.inl ⟨_, rfl⟩)) h
  · exact absurd (.inl (.inr ⟨_, rfl⟩)) h
  · exact absurd (.inr ⟨_, rfl⟩) h
  · rfl

theorem comment_start {c : Char} {b : Str} (h : IsComment (c :: b)) : plainChar c = false ∧ c ≠ '<' ∧ c ≠ '>' := by
  rcases h with (⟨r, h⟩ | ⟨r, h⟩) | ⟨r, h⟩ <;> cases h <;> decide

theorem blank_sim (gs ls : List Str) (hw : ∀ g ∈ gs, AllWs g)
    (hl : ∀ l ∈ ls, ∃ c b, l = c :: b ∧ isWhitespaceChar c = false) :
    Sim (interleave gs ls) (interleave gs (ls.map blankComment)) := by
  match gs, ls with
  | [], _ => exact .of_head (by simp [interleave])
  | [] :: gs, [] => exact .of_head rfl
  | [] :: gs, l :: ls =>
    obtain ⟨c, b, rfl, hc⟩ := hl l (by simp)
    simp only [interleave, List.map_cons, List.nil_append]
    by_cases h : IsComment (c :: b)
    · rw [blankComment_of h]
      refine Sim.comment (comment_start h).1 ?_
      exact wsStart_append (blank_ws _) (.inl (by simp [blank]))
    · rw [blankComment_not h]
      exact .of_head rfl
  | (c :: g) :: gs, [] => exact .of_head rfl
  | (c :: g) :: gs, l :: ls => exact .of_head rfl

/-- Only the literal `<` depends on the literal before it. -/
theorem stepDepthLit_last {U : Unicode} {d : Nat} {c : Char} {cs a lit r : Str} (last last' : Option Str)
    (h : readToken U d c cs = .tok a lit r) (hl : lit ≠ ['<']) :
    stepDepthLit U d last' c cs = stepDepthLit U d last c cs := by
  unfold stepDepthLit
  split
  · next hc =>
    exfalso
    obtain ⟨rfl, h1, h2, h3⟩ := hc
    simp only [readToken, if_neg h1, if_neg h2, if_neg h3, Read.chars, Read.tok.injEq] at h
    exact hl h.2.1.symm
  · rfl

theorem lexFrom_blank {U : Unicode} (hU : U.Lawful) : ∀ (lits gaps : List Str) (p : Nat × Nat) (d : Nat)
    (last last' : Option Str) (ts : List Token), gaps.length = lits.length + 1 → (∀ g ∈ gaps, AllWs g) →
    (∀ l ∈ lits, ∃ c b, l = c :: b ∧ isWhitespaceChar c = false) → NoBracketAfterComment lits →
    (last' = last ∨ lits.head? ≠ some ['<']) →
    lexFrom U p d last (interleave gaps lits) = .ok ts → ts.map (·.literal) = lits ++ [[]] →
    lexFrom U p d last' (interleave gaps (lits.map blankComment)) = .ok (ts.filter fun t => !t.isComment)
  | [], [g], p, d, last, last', ts, _, hw, _, _, _, h, _ => by
    have hg := hw g (by simp)
    have k := fun last => lexFrom_ws U p d last g [] hg
    simp only [List.append_nil] at k
    simp only [interleave, k, lexFrom_nil, List.map_nil] at h ⊢
    cases h
    rfl
  | l :: ls, g :: gs, p, d, last, last', ts, hlen, hw, hl, hb, hlast, h, hts => by
    have hg := hw g (by simp)
    have hgs : ∀ g ∈ gs, AllWs g := fun g h => hw g (by simp [h])
    have hls : ∀ l ∈ ls, ∃ c b, l = c :: b ∧ isWhitespaceChar c = false := fun l h => hl l (by simp [h])
    have hbs : NoBracketAfterComment ls := fun x m y e => hb (l :: x) m y (by rw [e]; rfl)
    obtain ⟨c, b, rfl, hc⟩ := hl l (by simp)
    have hsim := blank_sim gs ls hgs hls
    have hn : IsComment (c :: b) → ls.head? ≠ some ['<'] := by
      intro hcom he
      cases ls with
      | nil => cases he
      | cons m ms =>
        simp only [List.head?_cons, Option.some.injEq] at he
        subst he
        exact hb [] (c :: b) ms rfl hcom
    simp only [interleave, List.append_assoc, List.map_cons] at h ⊢
    rw [lexFrom_ws _ _ _ _ _ _ hg] at h ⊢
    rw [List.cons_append, lexFrom_cons _ _ _ _ _ _ hc] at h
    split at h
    · cases h
    · next d' hd =>
      split at h
      · cases h
      · next consumed lit rest' hr =>
        obtain ⟨g1, ⟨w, g2, g3⟩, _⟩ := readToken_good _ _ _ _ _ _ _ hr
        -- the tokens behind the first
        obtain ⟨ts', hts', rfl⟩ : ∃ ts', lexFrom U (advanceAll (advanceAll p g) consumed) d' (some lit) rest' = .ok ts' ∧
            ts = ⟨(advanceAll p g).1, (advanceAll p g).2, lit⟩ :: ts' := by
          cases ho : lexFrom U (advanceAll (advanceAll p g) consumed) d' (some lit) rest' with
          | ok ts' => rw [ho] at h; simp only [prepend, Out.ok.injEq] at h; exact ⟨ts', rfl, h.symm⟩
          | err e => rw [ho] at h; cases h
          | panic e => rw [ho] at h; cases h
          | timeout => rw [ho] at h; cases h
        simp only [List.map_cons, List.cons_append, List.cons.injEq] at hts
        obtain ⟨rfl, hts2⟩ := hts
        have htail : interleave gs ls = w ++ rest' := by
          rw [g2] at g1
          simp only [List.cons_append, List.append_assoc, List.cons.injEq, true_and] at g1
          exact (List.append_cancel_left g1).symm
        have hrest : lexFrom U (advanceAll (advanceAll p g) (c :: b)) d' (some (c :: b)) (interleave gs ls) = .ok ts' := by
          rw [htail, lexFrom_ws _ _ _ _ _ _ g3, ← hts', g2]
          simp [advanceAll, List.foldl_append]
        by_cases hcom : IsComment (c :: b)
        · -- a comment
          obtain ⟨_, c1, c2⟩ := comment_start hcom
          have hd' : d' = d := by
            simp only [stepDepthLit, c1, c2, false_and, if_false, Option.some.injEq] at hd
            exact hd.symm
          subst hd'
          rw [blankComment_of hcom, lexFrom_ws _ _ _ _ _ _ (blank_ws _), advanceAll_blank,
            lexFrom_blank hU ls gs _ _ _ last' ts' (by simpa using hlen) hgs hls hbs (.inr (hn hcom)) hrest hts2]
          rw [List.filter_cons_of_neg (by simp [isComment_iff, hcom])]
        · -- another token
          rw [blankComment_not hcom, List.cons_append, lexFrom_cons _ _ _ _ _ _ hc]
          have hlc : ¬ IsLineComment (c :: b) := fun h => hcom (.inl h)
          have hw0 : w = [] := by
            have h1 : readToken U d c ((b ++ w) ++ rest') = .tok (c :: (b ++ w)) (c :: b) rest' := by
              rw [List.append_assoc, ← htail, hr, g2, List.cons_append]
            have := (readToken_tail hU h1 hlc (.of_head rfl)).1
            simpa using this
          subst hw0
          rw [List.nil_append] at htail
          rw [List.append_nil] at g2
          subst g2
          rw [← htail] at hr
          have hr' := (readToken_tail hU hr hlc hsim).2
          have hstep : stepDepthLit U d last' c (b ++ interleave gs (ls.map blankComment)) = some d' := by
            rw [stepDepthLit_tail (hsim.append b), ← hd]
            rcases hlast with rfl | hlast
            · rfl
            · exact stepDepthLit_last last last' hr (by simpa using hlast)
          rw [hstep, hr']
          dsimp only
          rw [lexFrom_blank hU ls gs _ _ _ (some (c :: b)) ts' (by simpa using hlen) hgs hls hbs (.inl rfl) hrest hts2]
          rw [List.filter_cons_of_pos (by
            have := isComment_iff ⟨(advanceAll p g).1, (advanceAll p g).2, c :: b⟩
            simp only [Bool.not_eq_true']
            cases hx : Token.isComment ⟨(advanceAll p g).1, (advanceAll p g).2, c :: b⟩ with
            | false => rfl
            | true => exact absurd (this.1 hx) hcom)]
          rfl
  | [], [], _, _, _, _, _, h, _, _, _, _, _, _ => by simp at h
  | [], _ :: _ :: _, _, _, _, _, _, h, _, _, _, _, _, _ => by simp at h
  | _ :: _, [], _, _, _, _, _, h, _, _, _, _, _, _ => by simp at h

end Verif.Lex
