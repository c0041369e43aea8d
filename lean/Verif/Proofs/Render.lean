import Verif.Spec.Render
import Verif.Proofs.Respace2
import Verif.Proofs.LexerSegs
/-! The text rendered from tokens has these tokens. -/
namespace Verif.Lex
open Spec

variable {U : Unicode}

theorem lineAfter_append (p x : Str) : lineAfter (p ++ x) = lineAfter p + x.count '\n' := by
  unfold lineAfter
  rw [List.count_append]
  omega

theorem columnAfter_append (p x : Str) :
    columnAfter (p ++ x) = if '\n' ∈ x then columnAfter x else columnAfter p + x.length := by
  unfold columnAfter
  rw [List.reverse_append]
  split
  · next h =>
    rw [List.takeWhile_append, if_neg]
    intro hl
    have := List.takeWhile_sublist (l := x.reverse) (fun c => decide (c ≠ '\n'))
    have he := this.eq_of_length hl
    have hm : '\n' ∈ x.reverse.takeWhile fun c => decide (c ≠ '\n') := by rw [he]; simpa using h
    have := List.all_eq_true.1 (List.all_takeWhile (p := fun c => decide (c ≠ '\n')) (l := x.reverse)) _ hm
    simp at this
  · next h =>
    rw [List.takeWhile_append_of_pos]
    · simp; omega
    · intro c hc
      simp only [ne_eq, decide_eq_true_eq]
      rintro rfl
      exact h (by simpa using hc)

/-- The texts end on the same line and column. -/
def SamePos (p q : Str) : Prop := lineAfter p = lineAfter q ∧ columnAfter p = columnAfter q

theorem SamePos.append {p q : Str} (h : SamePos p q) (x : Str) : SamePos (p ++ x) (q ++ x) := by
  refine ⟨by rw [lineAfter_append, lineAfter_append, h.1], ?_⟩
  rw [columnAfter_append, columnAfter_append, h.2]

/-- The same gap made of newlines and blanks. -/
def canon (g : Str) : Str :=
  List.replicate (g.count '\n') '\n' ++ List.replicate (columnAfter g - 1) ' '

theorem nl_canon (g : Str) : '\n' ∈ canon g ↔ '\n' ∈ g := by
  unfold canon
  rw [List.mem_append, List.mem_replicate, List.mem_replicate, ← List.count_pos_iff (l := g)]
  constructor
  · rintro (h | h)
    · omega
    · exact absurd h.2 (by decide)
  · exact fun h => .inl ⟨by omega, rfl⟩

theorem columnAfter_nonl {g : Str} (h : '\n' ∉ g) : columnAfter g = 1 + g.length := by
  have := columnAfter_append [] g
  rw [if_neg h] at this
  simpa [columnAfter] using this

theorem columnAfter_nl {g : Str} : 1 ≤ columnAfter g := by unfold columnAfter; omega

theorem canon_nil (g : Str) : g = [] ↔ canon g = [] := by
  constructor
  · rintro rfl; rfl
  · intro h
    unfold canon at h
    rw [List.append_eq_nil_iff] at h
    simp only [List.replicate_eq_nil_iff] at h
    have hn : '\n' ∉ g := List.count_eq_zero.1 h.1
    rw [columnAfter_nonl hn] at h
    exact List.length_eq_zero_iff.1 (by omega)

theorem canon_ws (g : Str) : AllWs (canon g) := by
  intro c hc
  unfold canon at hc
  rcases List.mem_append.1 hc with h | h <;> rw [(List.mem_replicate.1 h).2] <;> decide

theorem canon_pos {p q : Str} (h : SamePos p q) (g : Str) : SamePos (p ++ canon g) (q ++ g) := by
  have hc : (canon g).count '\n' = g.count '\n' := by
    unfold canon
    rw [List.count_append, List.count_replicate_self, List.count_replicate, if_neg (by decide)]
    rfl
  refine ⟨by rw [lineAfter_append, lineAfter_append, h.1, hc], ?_⟩
  rw [columnAfter_append, columnAfter_append, h.2]
  by_cases hn : '\n' ∈ g
  · rw [if_pos ((nl_canon g).2 hn), if_pos hn]
    unfold canon
    have h1 : '\n' ∉ List.replicate (columnAfter g - 1) ' ' := by
      intro hm
      have := (List.mem_replicate.1 hm).2
      simp at this
    rw [columnAfter_append, if_neg h1, List.length_replicate]
    have h2 : columnAfter (List.replicate (g.count '\n') '\n') = 1 := by
      unfold columnAfter
      rw [List.reverse_replicate]
      have : 0 < g.count '\n' := List.count_pos_iff.2 hn
      obtain ⟨n, hn'⟩ : ∃ n, g.count '\n' = n + 1 := ⟨g.count '\n' - 1, by omega⟩
      rw [hn', List.replicate_succ]
      simp
    rw [h2]
    have := columnAfter_nl (g := g)
    omega
  · rw [if_neg (fun h => hn ((nl_canon g).1 h)), if_neg hn]
    unfold canon
    rw [columnAfter_nonl hn, List.count_eq_zero.2 hn]
    simp

theorem place_canon {p q g : Str} {t : Token} (h : SamePos p q) (h1 : t.line = lineAfter (q ++ g))
    (h2 : t.column = columnAfter (q ++ g)) : place p t = p ++ (canon g ++ t.literal) := by
  unfold place canon
  rw [lineAfter_append] at h1
  rw [columnAfter_append] at h2
  by_cases hn : '\n' ∈ g
  · have : 0 < g.count '\n' := List.count_pos_iff.2 hn
    rw [if_pos hn] at h2
    rw [if_neg (by rw [h1, h.1]; omega), h1, h2, h.1, Nat.add_sub_cancel_left]
    simp
  · rw [if_neg hn] at h2
    have h0 := List.count_eq_zero.2 hn
    rw [if_pos (by rw [h1, h.1, h0]; rfl), h2, h.2, columnAfter_nonl hn, h0]
    simp

/-- The gaps of the rendered text. -/
def canonGaps : List Str → List Str → List Str
  | g :: gs, _ :: ls => canon g :: canonGaps gs ls
  | _, _ => [[]]

theorem render_canon : ∀ (body : List Token) (gaps : List Str) (p q : Str), gaps.length = body.length + 1 →
    SamePos p q →
    (∀ i t, body[i]? = some t → t.line = lineAfter (q ++ pre gaps (body.map (·.literal)) i) ∧
      t.column = columnAfter (q ++ pre gaps (body.map (·.literal)) i)) →
    body.foldl place p = p ++ interleave (canonGaps gaps (body.map (·.literal))) (body.map (·.literal)) ∧
    ∀ i t, body[i]? = some t →
      t.line = lineAfter (p ++ pre (canonGaps gaps (body.map (·.literal))) (body.map (·.literal)) i) ∧
      t.column = columnAfter (p ++ pre (canonGaps gaps (body.map (·.literal))) (body.map (·.literal)) i)
  | [], gaps, p, q, hl, hs, hp => by
    constructor
    · cases gaps <;> simp [canonGaps, interleave]
    · intro i t h; simp at h
  | t :: body, [], p, q, hl, hs, hp => by simp at hl
  | t :: body, g :: gaps, p, q, hl, hs, hp => by
    have h0 := hp 0 t rfl
    have hpre0 : pre (g :: gaps) ((t :: body).map (·.literal)) 0 = g := by simp [pre, interleave]
    have hpre : ∀ (g : Str) (gaps : List Str) i, pre (g :: gaps) ((t :: body).map (·.literal)) (i + 1) =
        g ++ (t.literal ++ pre gaps (body.map (·.literal)) i) := by
      intro g gaps i
      simp [pre, interleave]
    rw [hpre0] at h0
    have hs' : SamePos (p ++ (canon g ++ t.literal)) (q ++ (g ++ t.literal)) := by
      rw [← List.append_assoc, ← List.append_assoc]
      exact (canon_pos hs g).append _
    obtain ⟨h1, h2⟩ := render_canon body gaps (p ++ (canon g ++ t.literal)) (q ++ (g ++ t.literal))
      (by simpa using hl) hs' (by
        intro i t' hi
        have := hp (i + 1) t' hi
        rw [hpre] at this
        simpa using this)
    constructor
    · rw [List.foldl_cons, place_canon hs h0.1 h0.2, h1]
      simp [canonGaps, interleave]
    · intro i t' hi
      cases i with
      | zero =>
        cases hi
        have := canon_pos hs g
        simp only [List.map_cons, canonGaps]
        rw [show pre (canon g :: canonGaps gaps (body.map (·.literal))) (t.literal :: body.map (·.literal)) 0 = canon g by
          simp [pre, interleave], this.1, this.2]
        exact h0
      | succ i =>
        have := h2 i t' hi
        simp only [List.map_cons, canonGaps]
        have e := hpre (canon g) (canonGaps gaps (body.map (·.literal))) i
        rw [List.map_cons] at e
        rw [e]
        simpa using this

/-- Between a line comment and the next literal there is a newline. -/
theorem comment_gap {U : Unicode} (hU : U.Lawful) {d : Nat} {l g m rest : Str} {c : Char}
    (h : Lexeme U (decide (0 < d)) l (g ++ (c :: m ++ rest))) (hc : isWhitespaceChar c = false) (hg : AllWs g)
    (hl : IsLineComment l) : '\n' ∈ g := by
  obtain ⟨c1, cs, w, rest', h1, _, h3, h4, h5⟩ := lexeme_read hU d h
  have hs := readToken_comment_shape U d c1 cs (readToken_line_comment _ _ _ _ _ _ _ h5 hl)
  rw [h5] at hs
  simp only [Read.tok.injEq] at hs
  obtain ⟨k1, _, k3⟩ := hs
  by_contra hn
  -- what is left starts with a newline, or nothing is left
  have hcm : c ∉ w := fun hm => by rw [h4 c hm] at hc; cases hc
  rcases List.append_eq_append_iff.1 h3 with ⟨x, e1, e2⟩ | ⟨x, e1, e2⟩
  · -- `w` reaches beyond the gap
    cases x with
    | nil =>
      simp only [List.nil_append] at e2
      rw [← e2] at k3
      have := spanP_snd_head (fun c => c != '\n') (c1 :: cs) c (m ++ rest) k3.symm
      simp at this
      rw [this] at hc
      exact absurd hc (by decide)
    | cons y x =>
      simp only [List.cons_append, List.cons.injEq] at e2
      exact hcm (by rw [e1, e2.1]; simp)
  · cases x with
    | nil =>
      simp only [List.nil_append] at e2
      rw [e2] at k3
      have := spanP_snd_head (fun c => c != '\n') (c1 :: cs) c (m ++ rest) k3.symm
      simp at this
      rw [this] at hc
      exact absurd hc (by decide)
    | cons y x =>
      rw [e2] at k3
      have := spanP_snd_head (fun c => c != '\n') (c1 :: cs) y _ k3.symm
      simp at this
      exact hn (by rw [e1, this]; simp)

theorem canon_respaced {U : Unicode} (hU : U.Lawful) {last : Option Str} {d : Nat} {s : Str} {gaps lits : List Str}
    (h : Segs U last d s gaps lits []) : ∀ prev : Option Str,
      (∀ l', prev = some l' → IsLineComment l' → ∀ g gs l ls, gaps = g :: gs → lits = l :: ls → '\n' ∈ g) →
      Respaced prev gaps (canonGaps gaps lits) lits := by
  generalize hst : ([] : Str) = stuck at h
  induction h with
  | done hw => intro prev _; exact .last hw (by simp [AllWs])
  | @cons last d w l rest gs ls stuck hw h t ih =>
    intro prev hp
    refine .cons hw (canon_ws w) ?_ (ih hst (some l) ?_)
    · intro l' hl'
      refine ⟨canon_nil w, fun _ => (nl_canon w).symm, fun hlc => ?_⟩
      exact (nl_canon w).2 (hp l' hl' hlc w gs l ls rfl rfl)
    · rintro l' hl' hlc g gs' m ls' rfl rfl
      cases hl'
      cases t with
      | cons hw' h' t' =>
        obtain ⟨c, m', rfl, e2⟩ := lexeme_ne_nil hU h'
        exact comment_gap hU h e2 hw' hlc

/-- The rendered text has the tokens it is made from. -/
theorem tokenize_render {U : Unicode} (hU : U.Lawful) {code : Str} {body : List Token} {gaps : List Str}
    (h : tokenize U code = .ok (body ++ [Token.eof])) (hs : Segs U none 0 code gaps (body.map (·.literal)) []) :
    tokenize U (render body) = .ok (body ++ [Token.eof]) := by
  obtain ⟨s1, s2, s3, _⟩ := (segs_iff U [] (body.map (·.literal)) gaps none 0 code).1 hs
  rw [List.append_nil] at s3
  subst s3
  have hl : (body ++ [Token.eof]).map (·.literal) = body.map (·.literal) ++ [[]] := by simp [Token.eof]
  obtain ⟨body0, b0, b1, b2, b3⟩ := tokenize_pre h hl s1 s2
  obtain rfl := List.append_cancel_right b0
  obtain ⟨r1, r2⟩ := render_canon body gaps [] [] (by simpa using s1) ⟨rfl, rfl⟩ (by simpa using b3)
  have hR := canon_respaced hU hs none (by intro l' h; cases h)
  have he : erase (lexFrom U (1, 1) 0 none (interleave gaps (body.map (·.literal)))) =
      .ok (body.map (·.literal) ++ [[]]) := by
    rw [← tokenize_lexFrom]
    show erase (tokenize U _) = _
    rw [h, ← hl]
    rfl
  obtain ⟨toks', e1, e2⟩ := erase_tokens (lexFrom_respace hU hR b2 (1, 1) (1, 1) 0 none he)
  have h' : tokenize U (interleave (canonGaps gaps (body.map (·.literal))) (body.map (·.literal))) = .ok toks' := by
    rw [← e1]; exact tokenize_lexFrom _ _
  obtain ⟨q1, q2, q3, q4⟩ := Respaced.shape hR
  obtain ⟨body', c0, c1, _, c3⟩ := tokenize_pre h' e2 q2 q4
  subst c0
  have hbb : body' = body := by
    refine List.ext_getElem? fun i => ?_
    cases hb : body[i]? with
    | none =>
      have h1 := List.getElem?_eq_none_iff.1 hb
      have h2 := congrArg List.length c1
      simp only [List.length_map] at h2
      exact List.getElem?_eq_none_iff.2 (by omega)
    | some t =>
      have h1 := (List.getElem?_eq_some_iff.1 hb).1
      have h2 := congrArg List.length c1
      simp only [List.length_map] at h2
      have hb' : body'[i]? = some body'[i] := List.getElem?_eq_getElem (by omega)
      have p1 := c3 i _ hb'
      have p2 := r2 i t hb
      rw [List.nil_append] at p2
      have p3 : body'[i].literal = t.literal := by
        have := congrArg (·[i]?) c1
        simp only [List.getElem?_map, hb, hb', Option.map_some, Option.some.injEq] at this
        exact this
      rw [hb']
      generalize body'[i] = t' at p1 p3
      cases t; cases t'
      simp_all
  show tokenize U (render body) = _
  unfold render
  rw [r1, List.nil_append, h', hbb]

end Verif.Lex
