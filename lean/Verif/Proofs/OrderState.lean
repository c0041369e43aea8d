import Verif.Proofs.OrderBase
/-! States of the analysis and what they say. -/
namespace Verif.OI
open Core Spec

variable {ru : Rules} {toks : List Token}

/-- A segment with its parts. -/
structure G where
  own : Var
  d : Desc
  ps : Parts

/-- The segment. -/
def G.seg (g : G) : Seg := ⟨g.own, g.d⟩

/-- The segments of a variable. -/
def of (x : Var) : List G → List DP
  | [] => []
  | g :: r => if g.own = x then (g.d, g.ps) :: of x r else of x r

/-- The tokens of segments. -/
def words (l : List G) : List Token := l.flatMap fun g => word g.ps

/-- No segment of the variable. -/
def NoOwn (x : Var) (l : List G) : Prop := ∀ g ∈ l, g.own ≠ x

theorem beq_eq {a b : Nat} : Nat.beq a b = decide (a = b) := by
  by_cases h : a = b
  · rw [decide_eq_true h, h, Nat.beq_refl]
  · rw [decide_eq_false h]
    rw [Bool.eq_false_iff]
    intro h'
    exact h (Nat.eq_of_beq_eq_true h')

theorem beq_iff {a b : Nat} : Nat.beq a b = true ↔ a = b := by rw [beq_eq, decide_eq_true_iff]

@[simp] theorem of_nil (x : Var) : of x [] = [] := rfl

theorem of_cons (x : Var) (g : G) (r : List G) :
    of x (g :: r) = (if g.own = x then [(g.d, g.ps)] else []) ++ of x r := by
  rw [of]; split <;> rfl

theorem of_append (x : Var) (l l' : List G) : of x (l ++ l') = of x l ++ of x l' := by
  induction l with
  | nil => rfl
  | cons g r ih => rw [List.cons_append, of_cons, of_cons, ih, List.append_assoc]

theorem of_none {x : Var} {l : List G} (h : NoOwn x l) : of x l = [] := by
  induction l with
  | nil => rfl
  | cons g r ih =>
    rw [of, if_neg (h g List.mem_cons_self), ih fun g hg => h g (List.mem_cons_of_mem _ hg)]

theorem noOwn_of {x : Var} {l : List G} (h : of x l = []) : NoOwn x l := by
  induction l with
  | nil => intro g hg; cases hg
  | cons g r ih =>
    rw [of] at h
    split at h
    · cases h
    · next hg =>
      intro g' hg'
      rcases List.mem_cons.1 hg' with rfl | hg'
      · exact hg
      · exact ih h g' hg'

theorem of_length (x : Var) (l : List G) : (of x l).length = count x (l.map G.seg) := by
  induction l with
  | nil => rfl
  | cons g r ih =>
    rw [of, List.map_cons, count]
    simp only [beq_iff]
    show _ = if g.own = x then _ else _
    split
    · rw [List.length_cons, ih]
    · exact ih

theorem noOwn_count {x : Var} {l : List G} (h : count x (l.map G.seg) = 0) : NoOwn x l := by
  rw [← of_length] at h
  exact noOwn_of (List.length_eq_zero_iff.1 h)

theorem count_append (x : Var) (l l' : List Seg) : count x (l ++ l') = count x l + count x l' := by
  induction l with
  | nil => simp [count]
  | cons g r ih =>
    rw [List.cons_append, count, count, ih]
    split <;> omega

theorem words_append (l l' : List G) : words (l ++ l') = words l ++ words l' := List.flatMap_append

theorem words_cons (g : G) (l : List G) : words (g :: l) = word g.ps ++ words l := List.flatMap_cons

@[simp] theorem words_nil : words [] = [] := rfl

theorem words_sublist {l l' : List G} (h : l.Sublist l') : (words l).Sublist (words l') := by
  unfold words
  induction h with
  | slnil => exact .refl _
  | cons a _ ih =>
    rw [List.flatMap_cons]
    exact ih.trans (List.sublist_append_right _ _)
  | cons_cons a _ ih =>
    rw [List.flatMap_cons, List.flatMap_cons]
    exact (List.Sublist.refl _).append ih

/-- A variable with one segment. -/
theorem split_one {x : Var} {l : List G} (h : count x (l.map G.seg) = 1) :
    ∃ l1 t l2, l = l1 ++ t :: l2 ∧ t.own = x ∧ NoOwn x l1 ∧ NoOwn x l2 := by
  induction l with
  | nil => cases h
  | cons g r ih =>
    rw [List.map_cons, count] at h
    simp only [beq_iff] at h
    by_cases hg : g.own = x
    · rw [if_pos (show g.seg.own = x from hg)] at h
      exact ⟨[], g, r, rfl, hg, (by intro g hg; cases hg), noOwn_count (by omega)⟩
    · rw [if_neg (show ¬ g.seg.own = x from hg)] at h
      obtain ⟨l1, t, l2, h1, h2, h3, h4⟩ := ih h
      refine ⟨g :: l1, t, l2, by rw [h1]; rfl, h2, ?_, h4⟩
      intro g' hg'
      rcases List.mem_cons.1 hg' with rfl | hg'
      · exact hg
      · exact h3 g' hg'

/-! ### Operations on words of segments -/

theorem seg_own (g : G) : g.seg.own = g.own := rfl

theorem find_none {x : Var} {l : List G} (h : NoOwn x l) : find x (l.map G.seg) = none := by
  induction l with
  | nil => rfl
  | cons g r ih =>
    rw [List.map_cons, find, seg_own, beq_eq, decide_eq_false (h g List.mem_cons_self)]
    exact ih fun g hg => h g (List.mem_cons_of_mem _ hg)

theorem find_mid {x : Var} {l1 l2 : List G} {t : G} (h : NoOwn x l1) (ht : t.own = x) :
    find x ((l1 ++ t :: l2).map G.seg) = some t.d := by
  induction l1 with
  | nil =>
    rw [List.nil_append, List.map_cons, find, seg_own, beq_eq, decide_eq_true ht]
    rfl
  | cons g r ih =>
    rw [List.cons_append, List.map_cons, find, seg_own, beq_eq, decide_eq_false (h g List.mem_cons_self)]
    exact ih fun g hg => h g (List.mem_cons_of_mem _ hg)

theorem find_some {x : Var} {l : List G} {d : Desc} (h : find x (l.map G.seg) = some d) :
    ∃ p, (d, p) ∈ of x l := by
  induction l with
  | nil => cases h
  | cons g r ih =>
    rw [List.map_cons, find, seg_own, beq_eq] at h
    rw [of]
    by_cases hg : g.own = x
    · rw [decide_eq_true hg, if_pos rfl] at h
      cases h
      rw [if_pos hg]
      exact ⟨g.ps, List.mem_cons_self⟩
    · rw [decide_eq_false hg] at h
      rw [if_neg hg]
      exact ih h

theorem replace_none {x : Var} {l : List G} (s : Seg) (h : NoOwn x l) :
    replaceSeg x s (l.map G.seg) = l.map G.seg := by
  induction l with
  | nil => rfl
  | cons g r ih =>
    rw [List.map_cons, replaceSeg, seg_own, beq_eq, decide_eq_false (h g List.mem_cons_self),
      ih fun g hg => h g (List.mem_cons_of_mem _ hg)]
    rfl

theorem replace_mid {x : Var} {l1 l2 : List G} {t : G} (u : G) (h1 : NoOwn x l1) (ht : t.own = x)
    (h2 : NoOwn x l2) : replaceSeg x u.seg ((l1 ++ t :: l2).map G.seg) = (l1 ++ u :: l2).map G.seg := by
  induction l1 with
  | nil =>
    rw [List.nil_append, List.map_cons, replaceSeg, seg_own, beq_eq, decide_eq_true ht, if_pos rfl,
      replace_none _ h2]
    rfl
  | cons g r ih =>
    rw [List.cons_append, List.map_cons, replaceSeg, seg_own, beq_eq,
      decide_eq_false (h1 g List.mem_cons_self), ih fun g hg => h1 g (List.mem_cons_of_mem _ hg)]
    rfl

theorem without_none {x : Var} {l : List G} (h : NoOwn x l) : without x (l.map G.seg) = l.map G.seg := by
  induction l with
  | nil => rfl
  | cons g r ih =>
    rw [List.map_cons, without, seg_own, beq_eq, decide_eq_false (h g List.mem_cons_self),
      ih fun g hg => h g (List.mem_cons_of_mem _ hg)]
    rfl

/-- Remove the segments of a variable. -/
def gwithout (x : Var) (l : List G) : List G := l.filter fun g => decide (g.own ≠ x)

theorem gwithout_seg (x : Var) (l : List G) : (gwithout x l).map G.seg = without x (l.map G.seg) := by
  induction l with
  | nil => rfl
  | cons g r ih =>
    rw [List.map_cons, without, seg_own, beq_eq]
    unfold gwithout at ih ⊢
    by_cases hg : g.own = x
    · rw [List.filter_cons_of_neg (by simp [hg]), decide_eq_true hg, if_pos rfl, ih]
    · rw [List.filter_cons_of_pos (by simp [hg]), decide_eq_false hg, List.map_cons, ih]
      rfl

theorem gwithout_sublist (x : Var) (l : List G) : (gwithout x l).Sublist l := List.filter_sublist

theorem noOwn_gwithout (x : Var) (l : List G) : NoOwn x (gwithout x l) := by
  intro g hg
  exact of_decide_eq_true (List.mem_filter.1 hg).2

theorem of_gwithout {x y : Var} (h : y ≠ x) (l : List G) : of y (gwithout x l) = of y l := by
  induction l with
  | nil => rfl
  | cons g r ih =>
    unfold gwithout at ih ⊢
    by_cases hg : g.own = x
    · rw [List.filter_cons_of_neg (by simp [hg]), ih, of, if_neg]
      rw [hg]; exact h.symm
    · rw [List.filter_cons_of_pos (by simp [hg]), of, of, ih]

theorem gwithout_none {x : Var} {l : List G} (h : NoOwn x l) : gwithout x l = l :=
  List.filter_eq_self.2 fun g hg => decide_eq_true (h g hg)

theorem gwithout_append (x : Var) (l l' : List G) : gwithout x (l ++ l') = gwithout x l ++ gwithout x l' :=
  List.filter_append ..

/-- Rename a variable. -/
def grename (x y : Var) (l : List G) : List G := l.map fun g => if g.own = x then ⟨y, g.d, g.ps⟩ else g

theorem grename_seg (x y : Var) (l : List G) : (grename x y l).map G.seg = rename x y (l.map G.seg) := by
  induction l with
  | nil => rfl
  | cons g r ih =>
    rw [List.map_cons, rename, seg_own, beq_eq, ← ih]
    unfold grename
    rw [List.map_cons, List.map_cons]
    by_cases hg : g.own = x
    · rw [if_pos hg, decide_eq_true hg]; rfl
    · rw [if_neg hg, decide_eq_false hg]; rfl

theorem grename_words (x y : Var) (l : List G) : words (grename x y l) = words l := by
  unfold words grename
  rw [List.flatMap_map]
  congr 1
  funext g
  split <;> rfl

theorem of_grename_new {x y : Var} {l : List G} (h : NoOwn y l) : of y (grename x y l) = of x l := by
  induction l with
  | nil => rfl
  | cons g r ih =>
    have ih := ih fun g hg => h g (List.mem_cons_of_mem _ hg)
    unfold grename at ih ⊢
    rw [List.map_cons, of_cons, of_cons, ih]
    congr 1
    by_cases hg : g.own = x
    · rw [if_pos hg, if_pos rfl, if_pos hg]
    · rw [if_neg hg, if_neg (h g List.mem_cons_self), if_neg hg]

theorem of_grename {x y z : Var} (hx : z ≠ x) (hy : z ≠ y) (l : List G) : of z (grename x y l) = of z l := by
  induction l with
  | nil => rfl
  | cons g r ih =>
    unfold grename at ih ⊢
    rw [List.map_cons, of_cons, of_cons, ih]
    congr 1
    by_cases hg : g.own = x
    · rw [if_pos hg, if_neg hy.symm, if_neg (by rw [hg]; exact hx.symm)]
    · rw [if_neg hg]

theorem noOwn_grename {x y : Var} (h : x ≠ y) (l : List G) : NoOwn x (grename x y l) := by
  intro g hg
  obtain ⟨g', _, rfl⟩ := List.mem_map.1 hg
  split
  · exact h.symm
  · assumption

theorem gwithout_grename {x y : Var} {l : List G} (h : NoOwn y l) :
    words (gwithout y (grename x y l)) = words (gwithout x l) := by
  induction l with
  | nil => rfl
  | cons g r ih =>
    have ih := ih fun g hg => h g (List.mem_cons_of_mem _ hg)
    unfold grename gwithout at ih ⊢
    rw [List.map_cons]
    by_cases hg : g.own = x
    · rw [if_pos hg, List.filter_cons_of_neg (by simp), List.filter_cons_of_neg (by simp [hg]), ih]
    · rw [if_neg hg, List.filter_cons_of_pos (by simpa using h g List.mem_cons_self),
        List.filter_cons_of_pos (by simp [hg]), words_cons, words_cons, ih]

theorem gwithout_grename' {x y z : Var} (hx : z ≠ x) (hy : z ≠ y) (l : List G) :
    words (gwithout z (grename x y l)) = words (gwithout z l) := by
  induction l with
  | nil => rfl
  | cons g r ih =>
    unfold grename gwithout at ih ⊢
    rw [List.map_cons]
    by_cases hg : g.own = x
    · rw [if_pos hg, List.filter_cons_of_pos (by simpa using hy.symm),
        List.filter_cons_of_pos (by rw [hg]; simpa using hx.symm), words_cons, words_cons, ih]
    · rw [if_neg hg]
      by_cases hz : g.own = z
      · rw [List.filter_cons_of_neg (by simp [hz]), List.filter_cons_of_neg (by simp [hz]), ih]
      · rw [List.filter_cons_of_pos (by simp [hz]), List.filter_cons_of_pos (by simp [hz]), words_cons,
          words_cons, ih]

/-- `l'` is `l` with other segments of `x`. -/
def Upd (x : Var) (R : DP → DP → Prop) (l l' : List G) : Prop :=
  List.Forall₂ (fun g g' => g'.own = g.own ∧ if g.own = x then R (g.d, g.ps) (g'.d, g'.ps) else g' = g) l l'

theorem Upd.of {x : Var} {R : DP → DP → Prop} {l l' : List G} (h : Upd x R l l') :
    List.Forall₂ R (of x l) (of x l') := by
  induction h with
  | nil => exact .nil
  | @cons g g' r r' h _ ih =>
    obtain ⟨h1, h2⟩ := h
    rw [OI.of, OI.of, h1]
    split at h2
    · next hg => rw [if_pos hg, if_pos hg]; exact .cons h2 ih
    · next hg => rw [if_neg hg, if_neg hg]; exact ih

theorem Upd.other {x y : Var} {R : DP → DP → Prop} {l l' : List G} (h : Upd x R l l') (hy : y ≠ x) :
    OI.of y l' = OI.of y l := by
  induction h with
  | nil => rfl
  | @cons g g' r r' h _ ih =>
    obtain ⟨h1, h2⟩ := h
    rw [of_cons, of_cons, ih]
    congr 1
    split at h2
    · next hg => rw [if_neg (by rw [h1, hg]; exact hy.symm), if_neg (by rw [hg]; exact hy.symm)]
    · rw [h2]

theorem Upd.words {x : Var} {R : DP → DP → Prop} {l l' : List G} (h : Upd x R l l')
    (hR : ∀ g g', R g g' → (word g'.2).Sublist (word g.2)) : (words l').Sublist (words l) := by
  induction h with
  | nil => exact .refl _
  | @cons g g' r r' h _ ih =>
    obtain ⟨h1, h2⟩ := h
    rw [words_cons, words_cons]
    refine List.Sublist.append ?_ ih
    split at h2
    · exact hR _ _ h2
    · rw [h2]

theorem Upd.without {x : Var} {R : DP → DP → Prop} {l l' : List G} (h : Upd x R l l') (z : Var) :
    Upd x R (gwithout z l) (gwithout z l') := by
  induction h with
  | nil => exact .nil
  | @cons g g' r r' h _ ih =>
    unfold gwithout at ih ⊢
    by_cases hz : g.own = z
    · rw [List.filter_cons_of_neg (by simp [hz]), List.filter_cons_of_neg (by simp [h.1, hz])]
      exact ih
    · rw [List.filter_cons_of_pos (by simp [hz]), List.filter_cons_of_pos (by simp [h.1, hz])]
      exact .cons h ih

/-- Merging neighbours keeps the tokens and what is known. -/
theorem compact_spec : ∀ {l : List G} {r : List Seg}, compact ru (l.map G.seg) = .ok r →
    ∃ l', l'.map G.seg = r ∧ words l' = words l ∧
      ∀ y v rest, SegsOk ru v (of y l ++ rest) → SegsOk ru v (of y l' ++ rest)
  | [], r, h => by
    cases h
    exact ⟨[], rfl, rfl, fun _ _ _ h => h⟩
  | g :: t, r, h => by
    rw [List.map_cons, compact] at h
    cases hc : compact ru (t.map G.seg) with
    | error e => rw [hc] at h; cases h
    | ok q =>
      rw [hc] at h
      obtain ⟨t', h1, h2, h3⟩ := compact_spec hc
      have base : ∀ {r : List Seg}, Except.ok (g.seg :: q) = (Except.ok r : R (List Seg)) →
          ∃ l', l'.map G.seg = r ∧ words l' = words (g :: t) ∧
            ∀ y v rest, SegsOk ru v (of y (g :: t) ++ rest) → SegsOk ru v (of y l' ++ rest) := by
        intro r hr
        cases hr
        refine ⟨g :: t', by rw [List.map_cons, h1], by rw [words_cons, words_cons, h2], ?_⟩
        intro y v rest hs
        rw [of_cons, List.append_assoc] at hs ⊢
        have hs := hs.of_perm List.perm_append_comm
        rw [List.append_assoc] at hs
        exact (h3 y v _ hs).of_perm
          ((List.perm_append_comm (l₁ := of y t')).trans (by
            rw [List.append_assoc]
            exact (List.perm_append_comm (l₁ := rest)).trans (by
              rw [List.append_assoc])))
      cases q with
      | nil => exact base h
      | cons s q =>
        dsimp only at h
        obtain ⟨u, t'', rfl⟩ : ∃ u t'', t' = u :: t'' := by
          cases t' with
          | nil => cases h1
          | cons u t'' => exact ⟨u, t'', rfl⟩
        rw [List.map_cons] at h1
        obtain ⟨rfl, rfl⟩ := List.cons.inj h1
        rw [seg_own, seg_own, beq_eq] at h
        by_cases ho : g.own = u.own
        · rw [decide_eq_true ho, if_pos rfl] at h
          split at h
          · next as bs ha hb =>
            cases hm : mergeAlts ru as bs with
            | error e => rw [hm] at h; cases h
            | ok l =>
              rw [hm] at h
              cases h
              refine ⟨⟨g.own, .node l, g.ps ++ u.ps⟩ :: t'', rfl, ?_, ?_⟩
              · rw [words_cons, words_cons, ← h2, words_cons, ← List.append_assoc]
                congr 1
                exact List.flatMap_append
              · intro y v rest hs
                rw [of_cons] at hs ⊢
                dsimp only at hs ⊢
                by_cases hy : g.own = y
                · rw [if_pos hy] at hs ⊢
                  rw [List.append_assoc] at hs
                  have hs := h3 y v _ (hs.of_perm (by
                    rw [← List.append_assoc]
                    exact List.Perm.trans (List.Perm.append_right _ List.perm_append_comm) (by
                      rw [List.append_assoc])))
                  rw [of_cons, if_pos (ho.symm.trans hy)] at hs
                  have ha' : g.d = .node as := ha
                  have hb' : u.d = .node bs := hb
                  rw [ha', hb'] at hs
                  have hs := hs.of_perm (gs' := (.node as, g.ps) :: (.node bs, u.ps) :: (of y t'' ++ rest)) (by
                    simp only [List.append_assoc, List.singleton_append, List.cons_append, List.nil_append]
                    refine List.Perm.trans ?_ (List.Perm.swap _ _ _)
                    refine List.Perm.cons _ ?_
                    exact List.perm_middle)
                  exact hs.merge hm
                · rw [if_neg hy] at hs ⊢
                  have hs := h3 y v rest hs
                  rw [of_cons, if_neg (by rw [← ho]; exact hy)] at hs
                  exact hs
          · exact base h
        · rw [decide_eq_false ho] at h
          exact base h

/-! ### Pieces of a permutation -/

theorem of_perm {l l' : List G} (h : l.Perm l') (x : Var) : (of x l).Perm (of x l') := by
  induction h with
  | nil => exact .refl _
  | cons g _ ih =>
    rw [of, of]
    split
    · exact ih.cons _
    · exact ih
  | swap a b l =>
    simp only [of]
    split <;> split
    · exact List.Perm.swap _ _ _
    · exact .refl _
    · exact .refl _
    · exact .refl _
  | trans _ _ h1 h2 => exact h1.trans h2

theorem find_none_of {x : Var} : ∀ {l : List G}, find x (l.map G.seg) = none → NoOwn x l
  | [], _ => by intro g hg; cases hg
  | g :: r, h => by
    rw [List.map_cons, find, seg_own, beq_eq] at h
    by_cases hg : g.own = x
    · rw [decide_eq_true hg] at h; cases h
    · rw [decide_eq_false hg] at h
      intro g' hg'
      rcases List.mem_cons.1 hg' with rfl | hg'
      · exact hg
      · exact find_none_of h g' hg'

theorem noOwn_append {x : Var} {l l' : List G} : NoOwn x (l ++ l') ↔ NoOwn x l ∧ NoOwn x l' := by
  unfold NoOwn
  simp only [List.mem_append]
  exact ⟨fun h => ⟨fun g hg => h g (.inl hg), fun g hg => h g (.inr hg)⟩,
    fun h g hg => hg.elim (h.1 g) (h.2 g)⟩

/-- The only segment of a variable, and its replacement. -/
theorem pick {x : Var} {gl gr : List G} (h : count x (gl.map G.seg) + count x (gr.map G.seg) = 1) :
    ∃ t rest, t.own = x ∧ (gl ++ gr).Perm (t :: rest) ∧ NoOwn x rest ∧
      ((find x (gl.map G.seg) = some t.d ∧ NoOwn x gr) ∨ (find x (gl.map G.seg) = none ∧ find x (gr.map G.seg) = some t.d)) ∧
      ∀ u : G, (word u.ps).Sublist (word t.ps) → ∃ gl' gr', gl'.map G.seg = replaceSeg x u.seg (gl.map G.seg) ∧
        gr'.map G.seg = replaceSeg x u.seg (gr.map G.seg) ∧ (gl' ++ gr').Perm (u :: rest) ∧
        (words gl').Sublist (words gl) ∧ (words gr').Sublist (words gr) := by
  have key : ∀ (u t : G) (l1 l2 : List G), (word u.ps).Sublist (word t.ps) →
      (words (l1 ++ u :: l2)).Sublist (words (l1 ++ t :: l2)) := by
    intro u t l1 l2 hw
    rw [words_append, words_append, words_cons, words_cons]
    exact (List.Sublist.refl _).append (hw.append (.refl _))
  rcases Nat.eq_zero_or_pos (count x (gl.map G.seg)) with h0 | h0
  · have hn := noOwn_count h0
    obtain ⟨l1, t, l2, rfl, h2, h3, h4⟩ := split_one (x := x) (l := gr) (by omega)
    refine ⟨t, gl ++ (l1 ++ l2), h2, ?_, noOwn_append.2 ⟨hn, noOwn_append.2 ⟨h3, h4⟩⟩,
      .inr ⟨find_none hn, find_mid h3 h2⟩, ?_⟩
    · rw [← List.append_assoc, ← List.append_assoc]
      exact List.perm_middle
    · intro u hu
      refine ⟨gl, l1 ++ u :: l2, (replace_none _ hn).symm, (replace_mid u h3 h2 h4).symm, ?_, .refl _,
        key u t l1 l2 hu⟩
      rw [← List.append_assoc, ← List.append_assoc]
      exact List.perm_middle
  · have hn := noOwn_count (x := x) (l := gr) (by omega)
    obtain ⟨l1, t, l2, rfl, h2, h3, h4⟩ := split_one (x := x) (l := gl) (by omega)
    refine ⟨t, l1 ++ l2 ++ gr, h2, ?_, noOwn_append.2 ⟨noOwn_append.2 ⟨h3, h4⟩, hn⟩,
      .inl ⟨find_mid h3 h2, hn⟩, ?_⟩
    · rw [List.append_assoc, List.append_assoc, List.cons_append]
      exact List.perm_middle
    · intro u hu
      refine ⟨l1 ++ u :: l2, gr, (replace_mid u h3 h2 h4).symm, (replace_none _ hn).symm, ?_,
        key u t l1 l2 hu, .refl _⟩
      rw [List.append_assoc, List.append_assoc, List.cons_append]
      exact List.perm_middle

/-! ### Slices of the tokens -/

/-- The tokens from `a` to before `b`. -/
def slice (toks : List Token) (a b : Nat) : List Token := (toks.take b).drop a

theorem slice_append {a b c : Nat} (h1 : a ≤ b) (h2 : b ≤ c) :
    slice toks a b ++ slice toks b c = slice toks a c := by
  unfold slice
  have h3 : toks.take b = (toks.take c).take b := by rw [List.take_take, Nat.min_eq_left h2]
  rw [h3]
  generalize toks.take c = l
  have h4 : (l.take b).drop a ++ l.drop b = l.drop a := by
    rw [List.drop_take]
    have h5 : l.drop b = (l.drop a).drop (b - a) := by rw [List.drop_drop, Nat.add_sub_cancel' h1]
    rw [h5, List.take_append_drop]
  exact h4

theorem slice_mono {a b c : Nat} (h : b ≤ c) : (slice toks a b).Sublist (slice toks a c) := by
  unfold slice
  have : (toks.take b).Sublist (toks.take c) := (List.take_prefix_take_left h).sublist
  exact this.drop a

theorem slice_self (a : Nat) : slice toks a a = [] := by
  unfold slice
  exact List.drop_eq_nil_of_le (List.length_take_le _ _)

/-! ### States -/

/-- The end of what has been put into nodes: before or after the current token. -/
def endOf (c : Cov) (ls te : Nat) : Nat :=
  match c with
  | .unc => ls
  | _ => te

/-- The value of a variable without segments. -/
def emVal : Option NodeType → Val
  | none => .vec []
  | some t => .node (Node.empty t)

/-- The segments `gl` and `gr` justify a state.  `AL`, `AR`: tokens from the argument; `st`: first token
read; `ls`, `te`: the current token with its comments. -/
structure Ghost (ru : Rules) (toks : List Token) (st : Nat) (AL AR : List Token) (val : Var → Val)
    (ls te : Nat) (a : OState) (gl gr : List G) : Prop where
  segl : gl.map G.seg = a.lw
  segr : gr.map G.seg = a.rw
  wl : (words gl).Sublist AL
  wr : (words gr).Sublist (AR ++ slice toks st (endOf a.cov ls te))
  le : st ≤ endOf a.cov ls te
  fresh : ∀ x, a.cov = .fresh x →
    (words (gwithout x gr)).Sublist (AR ++ slice toks st ls) ∧ st ≤ ls
  em : ∀ x o, emFind x a.em = some o → val x = emVal o
  vars : ∀ x, SegsOk ru (val x) (of x (gl ++ gr))

/-- The state describes the values. -/
def Inv (ru : Rules) (toks : List Token) (st : Nat) (AL AR : List Token) (val : Var → Val)
    (ls te : Nat) (a : OState) : Prop :=
  ∃ gl gr, Ghost ru toks st AL AR val ls te a gl gr

variable {st ls te : Nat} {AL AR : List Token} {val val' : Var → Val} {a b : OState}

theorem endOf_commit (c : Cov) : endOf c.commit ls te = endOf c ls te := by cases c <;> rfl

theorem commit_fresh (c : Cov) (x : Var) : c.commit ≠ .fresh x := by cases c <;> simp [Cov.commit]

theorem Ghost.commitTo {gl gr gl' gr' : List G} (h : Ghost ru toks st AL AR val ls te a gl gr)
    (hc : b.cov = a.cov.commit) (hl : gl'.map G.seg = b.lw) (hr : gr'.map G.seg = b.rw)
    (wl : (words gl').Sublist (words gl)) (wr : (words gr').Sublist (words gr))
    (em : ∀ x o, emFind x b.em = some o → val' x = emVal o)
    (vars : ∀ x, SegsOk ru (val' x) (of x (gl' ++ gr'))) :
    Ghost ru toks st AL AR val' ls te b gl' gr' where
  segl := hl
  segr := hr
  wl := wl.trans h.wl
  wr := by rw [hc, endOf_commit]; exact wr.trans h.wr
  le := by rw [hc, endOf_commit]; exact h.le
  fresh := fun x hx => absurd (hc.symm.trans hx) (commit_fresh _ _)
  em := em
  vars := vars

theorem Ghost.keep {gl gr gl' gr' : List G} (h : Ghost ru toks st AL AR val ls te a gl gr)
    (hc : b.cov = a.cov) (hl : gl'.map G.seg = b.lw) (hr : gr'.map G.seg = b.rw)
    (wl : (words gl').Sublist (words gl)) (wr : (words gr').Sublist (words gr))
    (wf : ∀ x, (words (gwithout x gr')).Sublist (words (gwithout x gr)))
    (em : ∀ x o, emFind x b.em = some o → val' x = emVal o)
    (vars : ∀ x, SegsOk ru (val' x) (of x (gl' ++ gr'))) :
    Ghost ru toks st AL AR val' ls te b gl' gr' where
  segl := hl
  segr := hr
  wl := wl.trans h.wl
  wr := by rw [hc]; exact wr.trans h.wr
  le := by rw [hc]; exact h.le
  fresh := by
    intro x hx
    obtain ⟨h1, h2⟩ := h.fresh x (hc.symm.trans hx)
    exact ⟨(wf x).trans h1, h2⟩
  em := em
  vars := vars

theorem Inv.commit (h : Inv ru toks st AL AR val ls te a) :
    Inv ru toks st AL AR val ls te ⟨a.cov.commit, a.lw, a.rw, a.em⟩ := by
  obtain ⟨gl, gr, h⟩ := h
  exact ⟨gl, gr, h.commitTo rfl h.segl h.segr (.refl _) (.refl _) h.em h.vars⟩

/-! ### Variables without segments -/

theorem emFind_without (x y : Var) : ∀ l : List (Var × Option NodeType),
    emFind y (emWithout x l) = if y = x then none else emFind y l
  | [] => by split <;> rfl
  | p :: r => by
    have ih := emFind_without x y r
    rw [emWithout, beq_eq]
    by_cases hp : p.1 = x
    · rw [decide_eq_true hp, if_pos rfl, ih]
      by_cases hy : y = x
      · rw [if_pos hy, if_pos hy]
      · rw [if_neg hy, if_neg hy, emFind, beq_eq, decide_eq_false (by rw [hp]; exact Ne.symm hy)]
        rfl
    · rw [decide_eq_false hp]
      show emFind y (p :: emWithout x r) = _
      rw [emFind, emFind, ih, beq_eq]
      by_cases hy : p.1 = y
      · rw [decide_eq_true hy, if_pos rfl, if_pos rfl, if_neg (by rw [← hy]; exact hp)]
      · rw [decide_eq_false hy]; rfl

theorem emFind_rename {x y : Var} (hxy : x ≠ y) (z : Var) : ∀ {l : List (Var × Option NodeType)},
    emFind y l = none →
    emFind z (emRename x y l) = if z = x then none else if z = y then emFind x l else emFind z l
  | [], _ => by split; rfl; split <;> rfl
  | p :: r, h => by
    rw [emFind, beq_eq] at h
    by_cases hp : p.1 = y
    · rw [decide_eq_true hp] at h; cases h
    · rw [decide_eq_false hp] at h
      have ih := emFind_rename hxy z (l := r) h
      rw [emRename, beq_eq]
      by_cases hpx : p.1 = x
      · rw [decide_eq_true hpx, if_pos rfl, emFind, beq_eq, ih]
        by_cases hz : y = z
        · subst hz
          rw [decide_eq_true rfl, if_pos rfl, if_neg hxy.symm, if_pos rfl, emFind, beq_eq,
            decide_eq_true hpx]
          rfl
        · rw [decide_eq_false hz]
          show ite (z = x) _ _ = _
          by_cases hzx : z = x
          · rw [if_pos hzx, if_pos hzx]
          · rw [if_neg hzx, if_neg hzx, if_neg (Ne.symm hz), if_neg (Ne.symm hz), emFind, beq_eq,
              decide_eq_false (by rw [hpx]; exact Ne.symm hzx)]
            rfl
      · rw [decide_eq_false hpx]
        show emFind z (p :: emRename x y r) = _
        rw [emFind, beq_eq, ih]
        by_cases hz : p.1 = z
        · rw [decide_eq_true hz, if_pos rfl, if_neg (by rw [← hz]; exact hpx),
            if_neg (by rw [← hz]; exact hp), emFind, beq_eq, decide_eq_true hz]
          rfl
        · rw [decide_eq_false hz]
          show ite (z = x) _ _ = _
          rw [emFind, beq_eq, decide_eq_false hpx]
          rw [emFind, beq_eq, decide_eq_false hz]
          rfl

theorem emEq_spec : ∀ {l l' : List (Var × Option NodeType)}, emEq l l' = true → ∀ x, emFind x l = emFind x l'
  | [], [], _, _ => rfl
  | [], _ :: _, h, _ => by cases h
  | _ :: _, [], h, _ => by simp [emEq] at h
  | (y, none) :: r, (z, none) :: r', h, x => by
    simp only [emEq, Bool.and_eq_true] at h
    rw [emFind, emFind, emEq_spec h.2 x]
    dsimp only
    rw [beq_iff.1 h.1.1]
  | (y, some t) :: r, (z, some u) :: r', h, x => by
    simp only [emEq, Bool.and_eq_true] at h
    rw [emFind, emFind, emEq_spec h.2 x]
    dsimp only
    rw [beq_iff.1 h.1.1, AI.tyEq_iff.1 h.1.2]
  | (y, none) :: r, (z, some u) :: r', h, x => by simp [emEq] at h
  | (y, some t) :: r, (z, none) :: r', h, x => by simp [emEq] at h

/-! ### Moving and forgetting variables -/

theorem gwithout_gwithout_sublist (x z : Var) (l : List G) :
    (gwithout z (gwithout x l)).Sublist (gwithout z l) := (gwithout_sublist x l).filter _

theorem noOwn_of_append {x : Var} {l l' : List G} (h : NoOwn x l) (h' : NoOwn x l') : of x (l ++ l') = [] :=
  of_none (noOwn_append.2 ⟨h, h'⟩)

/-- Forget a variable; it may get any value. -/
theorem Inv.drop (h : Inv ru toks st AL AR val ls te a) (x : Var) (hv : ∀ y, y ≠ x → val' y = val y) :
    Inv ru toks st AL AR val' ls te (dropVar x a) := by
  obtain ⟨gl, gr, h⟩ := h
  refine ⟨gwithout x gl, gwithout x gr, h.keep rfl ?_ ?_ ?_ ?_ ?_ ?_ ?_⟩
  · rw [gwithout_seg, h.segl]; rfl
  · rw [gwithout_seg, h.segr]; rfl
  · exact words_sublist (gwithout_sublist x gl)
  · exact words_sublist (gwithout_sublist x gr)
  · exact fun z => words_sublist (gwithout_gwithout_sublist x z gr)
  · intro y o ho
    dsimp only [dropVar] at ho
    rw [emFind_without] at ho
    split at ho
    · cases ho
    · next hy => rw [hv y hy]; exact h.em y o ho
  · intro y
    by_cases hy : y = x
    · subst hy
      rw [noOwn_of_append (noOwn_gwithout _ _) (noOwn_gwithout _ _)]
      exact .nil _
    · rw [of_append, of_gwithout hy, of_gwithout hy, ← of_append, hv y hy]
      exact h.vars y

/-- Move a variable; the old one may get any value. -/
theorem Inv.rename (h : Inv ru toks st AL AR val ls te a) {x y : Var} (hxy : x ≠ y) (hy : val' y = val x)
    (hz : ∀ z, z ≠ x → z ≠ y → val' z = val z) : Inv ru toks st AL AR val' ls te (renameVar x y a) := by
  obtain ⟨gl, gr, h⟩ := h
  have hny : ∀ l, NoOwn y (gwithout y l) := noOwn_gwithout y
  have hw : ∀ l, (words (grename x y (gwithout y l))).Sublist (words l) := fun l => by
    rw [grename_words]; exact words_sublist (gwithout_sublist y l)
  unfold renameVar
  rw [beq_eq, decide_eq_false hxy]
  dsimp only [dropVar]
  rw [if_neg (by simp)]
  refine ⟨grename x y (gwithout y gl), grename x y (gwithout y gr), ?_, ?_, ?_, ?_, ?_, ?_, ?_, ?_⟩
  · rw [grename_seg, gwithout_seg, h.segl]
  · rw [grename_seg, gwithout_seg, h.segr]
  · exact (hw gl).trans h.wl
  · have h1 := (hw gr).trans h.wr
    dsimp only
    generalize a.cov = c at h1 ⊢
    cases c with
    | unc => exact h1
    | cov => exact h1
    | fresh z =>
      dsimp only
      split
      · exact h1
      · split <;> exact h1
  · have h1 := h.le
    dsimp only
    generalize a.cov = c at h1 ⊢
    cases c with
    | unc => exact h1
    | cov => exact h1
    | fresh z =>
      dsimp only
      split
      · exact h1
      · split <;> exact h1
  · intro z hz
    have hf := h.fresh
    have wf1 : (words (gwithout y (grename x y (gwithout y gr)))).Sublist (words (gwithout x gr)) := by
      rw [gwithout_grename (hny gr)]
      exact words_sublist (gwithout_gwithout_sublist y x gr)
    have wf2 : ∀ z, z ≠ x → z ≠ y →
        (words (gwithout z (grename x y (gwithout y gr)))).Sublist (words (gwithout z gr)) := by
      intro z h1 h2
      rw [gwithout_grename' h1 h2]
      exact words_sublist (gwithout_gwithout_sublist y z gr)
    generalize a.cov = c at hz hf
    cases c with
    | unc => cases hz
    | cov => cases hz
    | fresh w =>
      obtain ⟨h1, h2⟩ := hf w rfl
      dsimp only at hz
      rw [beq_eq, beq_eq] at hz
      by_cases hwx : w = x
      · subst hwx
        rw [decide_eq_true rfl, if_pos rfl] at hz
        cases hz
        exact ⟨wf1.trans h1, h2⟩
      · rw [decide_eq_false hwx] at hz
        by_cases hwy : w = y
        · rw [decide_eq_true hwy] at hz; cases hz
        · rw [decide_eq_false hwy] at hz
          cases hz
          exact ⟨(wf2 _ hwx hwy).trans h1, h2⟩
  · intro z o ho
    rw [emFind_rename hxy _ (by rw [emFind_without, if_pos rfl])] at ho
    split at ho
    · cases ho
    · next hzx =>
      split at ho
      · next hzy =>
        rw [emFind_without, if_neg hxy] at ho
        rw [hzy, hy]
        exact h.em x o ho
      · next hzy =>
        rw [emFind_without, if_neg hzy] at ho
        rw [hz z hzx hzy]
        exact h.em z o ho
  · intro z
    by_cases hzx : z = x
    · subst hzx
      rw [noOwn_of_append (noOwn_grename hxy _) (noOwn_grename hxy _)]
      exact .nil _
    · by_cases hzy : z = y
      · subst hzy
        rw [of_append, of_grename_new (hny gl), of_grename_new (hny gr), of_gwithout hxy, of_gwithout hxy,
          ← of_append, hy]
        exact h.vars x
      · rw [of_append, of_grename hzx hzy, of_grename hzx hzy, of_gwithout hzy, of_gwithout hzy, ← of_append,
          hz z hzx hzy]
        exact h.vars z

/-! ### Inclusion -/

theorem wordLe_spec {all : List Seg} : ∀ {gl : List G} {l' : List Seg},
    wordLe all (gl.map G.seg) l' = true →
    ∃ gl', gl'.map G.seg = l' ∧ List.Forall₂ (fun g g' : G => g'.own = g.own ∧ g'.ps = g.ps ∧
      segLe (count g.own all) g.d g'.d = true) gl gl'
  | [], [], _ => ⟨[], rfl, .nil⟩
  | [], _ :: _, h => by cases h
  | _ :: _, [], h => by simp [wordLe] at h
  | g :: r, s :: l', h => by
    rw [List.map_cons, wordLe, Bool.and_eq_true, Bool.and_eq_true] at h
    obtain ⟨⟨h1, h2⟩, h3⟩ := h
    obtain ⟨r', h4, h5⟩ := wordLe_spec h3
    have h1 : g.own = s.own := beq_iff.1 h1
    refine ⟨⟨s.own, s.d, g.ps⟩ :: r', by rw [List.map_cons, h4]; rfl, .cons ⟨h1.symm, rfl, h2⟩ h5⟩

theorem relabel_words {R : G → G → Prop} {l l' : List G}
    (h : List.Forall₂ (fun g g' : G => g'.own = g.own ∧ g'.ps = g.ps ∧ R g g') l l') (p : Var → Bool) :
    words (l'.filter fun g => p g.own) = words (l.filter fun g => p g.own) := by
  induction h with
  | nil => rfl
  | @cons g g' r r' h _ ih =>
    rw [List.filter_cons, List.filter_cons, h.1]
    split
    · rw [words_cons, words_cons, ih, h.2.1]
    · exact ih

theorem relabel_of {R : G → G → Prop} {l l' : List G}
    (h : List.Forall₂ (fun g g' : G => g'.own = g.own ∧ g'.ps = g.ps ∧ R g g') l l') {x : Var} {k : Nat}
    (hR : ∀ g g', g.own = x → R g g' → segLe k g.d g'.d = true) :
    List.Forall₂ (fun g g' : DP => g'.2 = g.2 ∧ segLe k g.1 g'.1 = true) (of x l) (of x l') := by
  induction h with
  | nil => exact .nil
  | @cons g g' r r' h _ ih =>
    rw [of, of, h.1]
    split
    · next hg => exact .cons ⟨h.2.1, hR _ _ hg h.2.2⟩ ih
    · exact ih

theorem Inv.mono (h : Inv ru toks st AL AR val ls te a) (hle : a.le b = true) :
    Inv ru toks st AL AR val ls te b := by
  obtain ⟨gl, gr, h⟩ := h
  unfold OState.le at hle
  simp only [Bool.and_eq_true] at hle
  obtain ⟨⟨⟨hc, hl⟩, hr⟩, he⟩ := hle
  rw [← h.segl, ← h.segr] at hl hr
  obtain ⟨gl', h1, h2⟩ := wordLe_spec hl
  obtain ⟨gr', h3, h4⟩ := wordLe_spec hr
  have hw : ∀ {l l' : List G}, List.Forall₂ (fun g g' : G => g'.own = g.own ∧ g'.ps = g.ps ∧
      segLe (count g.own (gl.map G.seg ++ gr.map G.seg)) g.d g'.d = true) l l' → words l' = words l := by
    intro l l' hf
    have := relabel_words hf fun _ => true
    rwa [List.filter_eq_self.2 fun _ _ => rfl, List.filter_eq_self.2 fun _ _ => rfl] at this
  have hcov : endOf b.cov ls te = endOf a.cov ls te ∧ ∀ x, b.cov = .fresh x → a.cov = .fresh x := by
    generalize a.cov = c at hc
    generalize b.cov = d at hc
    cases c <;> cases d <;> first | (cases hc; done) | refine ⟨rfl, ?_⟩
    · intro x hx; cases hx
    · intro x hx; cases hx
    · intro x hx; cases hx
    · intro x hx
      cases hx
      rw [beq_iff.1 hc]
  refine ⟨gl', gr', h1, h3, ?_, ?_, ?_, ?_, ?_, ?_⟩
  · rw [hw h2]; exact h.wl
  · rw [hw h4, hcov.1]; exact h.wr
  · rw [hcov.1]; exact h.le
  · intro x hx
    have h5 := h.fresh x (hcov.2 x hx)
    have := relabel_words h4 fun y => decide (y ≠ x)
    unfold gwithout at h5 ⊢
    rw [this]
    exact h5
  · intro x o ho
    rw [← emEq_spec he] at ho
    exact h.em x o ho
  · intro x
    refine (h.vars x).mono ?_
    have hlen : (of x (gl ++ gr)).length = count x (gl.map G.seg ++ gr.map G.seg) := by
      rw [of_length, List.map_append]
    rw [hlen, of_append, of_append]
    refine List.rel_append (relabel_of h2 ?_) (relabel_of h4 ?_)
    · rintro g g' rfl hR; exact hR
    · rintro g g' rfl hR; exact hR

theorem merge_spec {l m : List OState} (h : merge l = .ok m) {s : OState} (hs : s ∈ l)
    (hi : Inv ru toks st AL AR val ls te s) : ∃ t ∈ m, Inv ru toks st AL AR val ls te t := by
  unfold merge at h
  split at h
  · cases hs
  · cases h; exact ⟨s, hs, hi⟩
  · dsimp only at h
    split at h
    · next hall =>
      cases h
      obtain ⟨t, ht, hle⟩ := List.any_eq_true.1 (List.all_eq_true.1 hall s hs)
      exact ⟨t, ht, hi.mono hle⟩
    · cases h

theorem statesLe_spec {l m : List OState} (h : statesLe l m = true) {s : OState} (hs : s ∈ l)
    (hi : Inv ru toks st AL AR val ls te s) : ∃ t ∈ m, Inv ru toks st AL AR val ls te t := by
  obtain ⟨t, ht, hle⟩ := List.any_eq_true.1 (List.all_eq_true.1 h s hs)
  exact ⟨t, ht, hi.mono hle⟩

/-! ### Tokens -/

theorem Ghost.sub_te {gl gr : List G} (h : Ghost ru toks st AL AR val ls te a gl gr) (hlt : ls ≤ te) :
    (words gr).Sublist (AR ++ slice toks st te) ∧ st ≤ te := by
  have : endOf a.cov ls te ≤ te := by cases a.cov <;> first | exact hlt | exact Nat.le_refl te
  exact ⟨h.wr.trans ((List.Sublist.refl _).append (slice_mono this)), Nat.le_trans h.le this⟩

/-- `next_token`. -/
theorem Inv.next (h : Inv ru toks st AL AR val ls te a) (hlt : ls ≤ te) (te' : Nat) :
    Inv ru toks st AL AR val te te' ⟨.unc, a.lw, a.rw, a.em⟩ := by
  obtain ⟨gl, gr, h⟩ := h
  obtain ⟨h1, h2⟩ := h.sub_te hlt
  exact ⟨gl, gr, h.segl, h.segr, h.wl, h1, h2, by intro x hx; (cases hx), h.em, h.vars⟩

theorem Inv.uncover (h : Inv ru toks st AL AR val ls te a) (hu : uncover a = .ok b) :
    Inv ru toks st AL AR val ls te b ∧ b.cov = .unc := by
  unfold OI.uncover at hu
  split at hu
  · next hc => cases hu; exact ⟨h, hc⟩
  · cases hu
  · next x hc =>
    split at hu
    · next h0 =>
      cases hu
      refine ⟨?_, rfl⟩
      obtain ⟨gl, gr, h⟩ := h
      obtain ⟨h1, h2⟩ := h.fresh x hc
      refine ⟨gwithout x gl, gwithout x gr, ?_, ?_, ?_, h1, h2, by intro y hy; (cases hy), ?_, ?_⟩
      · rw [gwithout_seg, h.segl]; rfl
      · rw [gwithout_seg, h.segr]; rfl
      · exact (words_sublist (gwithout_sublist x gl)).trans h.wl
      · intro y o ho
        dsimp only [dropVar] at ho
        rw [emFind_without] at ho
        split at ho
        · cases ho
        · exact h.em y o ho
      · intro y
        by_cases hy : y = x
        · subst hy
          rw [noOwn_of_append (noOwn_gwithout _ _) (noOwn_gwithout _ _)]
          exact .nil _
        · rw [of_append, of_gwithout hy, of_gwithout hy, ← of_append]
          exact h.vars y
    · cases hu

end Verif.OI
