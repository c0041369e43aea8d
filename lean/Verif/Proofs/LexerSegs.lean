import Verif.Proofs.LexerSpec
/-! From single tokens to whole texts. -/
namespace Verif.Lex
open Verif.Spec

/-- White space and tokens up to `stuck`, from a previous literal and a number of open type brackets. -/
inductive Segs (U : Unicode) : Option Str → Nat → Str → List Str → List Str → Str → Prop
  | done {last d w stuck} (hw : AllWs w) : Segs U last d (w ++ stuck) [w] [] stuck
  | cons {last d w l rest gs ls stuck} (hw : AllWs w) (h : Lexeme U (decide (0 < d)) l rest)
      (t : Segs U (some l) (bracketStep U last d l) rest gs ls stuck) :
      Segs U last d (w ++ (l ++ rest)) (w :: gs) (l :: ls) stuck

theorem segs_iff (U : Unicode) (stuck : Str) : ∀ (lits gaps : List Str) (last : Option Str) (d : Nat) (s : Str),
    Segs U last d s gaps lits stuck ↔
      gaps.length = lits.length + 1 ∧ (∀ g ∈ gaps, AllWs g) ∧ s = interleave gaps lits ++ stuck ∧
      ∀ i l, lits[i]? = some l →
        Lexeme U (decide (0 < openBrackets U last d (lits.take i))) l
          (interleave (gaps.drop (i + 1)) (lits.drop (i + 1)) ++ stuck) := by
  intro lits
  induction lits with
  | nil =>
    intro gaps last d s
    constructor
    · intro h
      cases h with
      | done hw =>
        refine ⟨rfl, by simpa using hw, by simp [interleave], by simp⟩
    · rintro ⟨h1, h2, h3, -⟩
      match gaps, h1 with
      | [w], _ =>
        rw [h3]
        exact .done (h2 w (by simp))
  | cons l ls ih =>
    intro gaps last d s
    constructor
    · intro h
      cases h with
      | @cons _ _ w _ rest gs _ _ hw h t =>
        obtain ⟨h1, h2, h3, h4⟩ := (ih _ _ _ _).1 t
        refine ⟨by simp [h1], ?_, ?_, ?_⟩
        · intro g hg
          rcases List.mem_cons.1 hg with rfl | hg
          · exact hw
          · exact h2 g hg
        · rw [h3]; simp [interleave]
        · intro i l' hl
          cases i with
          | zero =>
            simp at hl
            subst hl
            simpa [openBrackets, ← h3] using h
          | succ i =>
            have := h4 i l' (by simpa using hl)
            simpa [openBrackets] using this
    · rintro ⟨h1, h2, h3, h4⟩
      cases gaps with
      | nil => simp at h1
      | cons w gs =>
        have hs : s = w ++ (l ++ (interleave gs ls ++ stuck)) := by rw [h3]; simp [interleave]
        rw [hs]
        refine .cons (h2 w (by simp)) (by simpa [openBrackets] using h4 0 l rfl) ?_
        refine (ih _ _ _ _).2 ⟨by simpa using h1, fun g hg => h2 g (by simp [hg]), rfl, ?_⟩
        intro i l' hl
        have := h4 (i + 1) l' (by simpa using hl)
        simpa [openBrackets] using this

theorem lexFrom_lexeme {U : Unicode} (hU : U.Lawful) (p : Nat × Nat) (d : Nat) (last : Option Str)
    {w l rest : Str} (hw : AllWs w) (h : Lexeme U (decide (0 < d)) l rest)
    (hl : last = none → l ≠ ['<']) :
    lexFrom U p d last (w ++ (l ++ rest)) =
      prepend [⟨(advanceAll p w).1, (advanceAll p w).2, l⟩]
        (lexFrom U (advanceAll (advanceAll p w) l) (bracketStep U last d l) (some l) rest) := by
  obtain ⟨c, cs, v, rest', h1, h2, h3, h4, h5⟩ := lexeme_read hU d h
  rw [lexFrom_ws _ _ _ _ _ _ hw, h1, lexFrom_cons _ _ _ _ _ _ h2]
  cases hs : stepDepthLit U d last c cs with
  | none =>
    exfalso
    unfold stepDepthLit at hs
    split at hs
    · rename_i hc
      obtain ⟨rfl, k1, k2, k3⟩ := hc
      cases last with
      | some x => simp at hs
      | none =>
        apply hl rfl
        simp [readToken, k1, k2, k3, Read.chars] at h5
        exact h5.2.1.symm
    · split at hs <;> simp at hs
  | some d' =>
    have hd := stepDepth_openBrackets U d d' last c cs _ l rest' [] hs h5
    have hd' : bracketStep U last d l = d' := hd
    simp only [h5]
    rw [hd', h3, lexFrom_ws _ _ _ _ _ _ h4, advanceAll_append]

theorem lexeme_ne_nil {U : Unicode} (hU : U.Lawful) {d : Nat} {l rest : Str}
    (h : Lexeme U (decide (0 < d)) l rest) : ∃ c l', l = c :: l' ∧ isWhitespaceChar c = false := by
  obtain ⟨c, cs, v, rest', h1, h2, h3, h4, h5⟩ := lexeme_read hU d h
  obtain ⟨-, -, l', hl⟩ := readToken_good _ _ _ _ _ _ _ h5
  exact ⟨c, l', hl, h2⟩

/-- The literal read at the start of a text is determined by the text. -/
theorem lexeme_unique {U : Unicode} (hU : U.Lawful) {d : Nat} {l rest l' rest' : Str}
    (h : Lexeme U (decide (0 < d)) l rest) (h' : Lexeme U (decide (0 < d)) l' rest')
    (e : l ++ rest = l' ++ rest') : l = l' ∧ rest = rest' := by
  obtain ⟨c, cs, v, r, h1, h2, h3, h4, h5⟩ := lexeme_read hU d h
  obtain ⟨c', cs', v', r', h1', h2', h3', h4', h5'⟩ := lexeme_read hU d h'
  rw [← e, h1] at h1'
  simp at h1'
  obtain ⟨rfl, rfl⟩ := h1'
  rw [h5] at h5'
  simp at h5'
  obtain ⟨-, rfl, -⟩ := h5'
  exact ⟨rfl, by simpa using e⟩

theorem ws_unique {w w' : Str} {c c' : Char} {r r' : Str} (hw : AllWs w) (hw' : AllWs w')
    (hc : isWhitespaceChar c = false) (hc' : isWhitespaceChar c' = false)
    (e : w ++ c :: r = w' ++ c' :: r') : w = w' ∧ c :: r = c' :: r' := by
  induction w generalizing w' with
  | nil =>
    cases w' with
    | nil => exact ⟨rfl, e⟩
    | cons x w' =>
      simp at e
      rw [e.1, hw' x (by simp)] at hc
      simp at hc
  | cons y w ih =>
    cases w' with
    | nil =>
      simp at e
      rw [← e.1, hw y (by simp)] at hc'
      simp at hc'
    | cons x w' =>
      simp at e
      obtain ⟨rfl, e⟩ := e
      obtain ⟨rfl, h2⟩ := ih (fun z hz => hw z (by simp [hz])) (fun z hz => hw' z (by simp [hz])) e
      exact ⟨rfl, h2⟩

/-- The text ends, or no token starts here. -/
def NoToken (U : Unicode) (d : Nat) (stuck : Str) : Prop :=
  stuck = [] ∨ ((∃ c r, stuck = c :: r ∧ isWhitespaceChar c = false) ∧
    ∀ l rest, stuck = l ++ rest → ¬ Lexeme U (decide (0 < d)) l rest)

theorem segs_unique {U : Unicode} (hU : U.Lawful) {last : Option Str} {d : Nat} {s : Str}
    {gs ls : List Str} {stuck : Str} (h : Segs U last d s gs ls stuck) :
    ∀ {gs' ls' stuck'}, Segs U last d s gs' ls' stuck' → NoToken U (openBrackets U last d ls) stuck →
      NoToken U (openBrackets U last d ls') stuck' → gs = gs' ∧ ls = ls' ∧ stuck = stuck' := by
  induction h with
  | @done last d w stuck hw =>
    intro gs' ls' stuck' h' hn hn'
    generalize hs : w ++ stuck = s at h'
    cases h' with
    | @done _ _ w' stuck' hw' =>
      rcases hn with rfl | ⟨⟨c, r, rfl, hc⟩, -⟩
      · rcases hn' with rfl | ⟨⟨c', r', rfl, hc'⟩, -⟩
        · simp at hs; simp [hs]
        · exfalso
          simp at hs
          have := hw c' (by rw [hs]; simp)
          rw [this] at hc'
          simp at hc'
      · rcases hn' with rfl | ⟨⟨c', r', rfl, hc'⟩, -⟩
        · exfalso
          simp at hs
          have := hw' c (by rw [← hs]; simp)
          rw [this] at hc
          simp at hc
        · obtain ⟨rfl, e⟩ := ws_unique hw hw' hc hc' hs
          simp [e]
    | @cons _ _ w' l' rest' gs' ls' _ hw' hl' t' =>
      exfalso
      obtain ⟨c', l'', rfl, hc'⟩ := lexeme_ne_nil hU hl'
      rcases hn with rfl | ⟨⟨c, r, rfl, hc⟩, hn⟩
      · simp at hs
        have := hw c' (by rw [hs]; simp)
        rw [this] at hc'
        simp at hc'
      · obtain ⟨rfl, e⟩ := ws_unique hw hw' hc hc' hs
        exact hn _ _ e hl'
  | @cons last d w l rest gs ls stuck hw hl t ih =>
    intro gs' ls' stuck' h' hn hn'
    generalize hs : w ++ (l ++ rest) = s at h'
    obtain ⟨c, l1, hl1, hc⟩ := lexeme_ne_nil hU hl
    cases h' with
    | @done _ _ w' stuck' hw' =>
      exfalso
      subst hl1
      rcases hn' with rfl | ⟨⟨c', r', rfl, hc'⟩, hn'⟩
      · simp at hs
        have := hw' c (by rw [← hs]; simp)
        rw [this] at hc
        simp at hc
      · obtain ⟨rfl, e⟩ := ws_unique hw hw' hc hc' hs
        exact hn' _ _ e.symm hl
    | @cons _ _ w' l' rest' gs' ls' _ hw' hl' t' =>
      obtain ⟨c', l1', hl1', hc'⟩ := lexeme_ne_nil hU hl'
      have e0 : w ++ c :: (l1 ++ rest) = w' ++ c' :: (l1' ++ rest') := by
        rw [hl1, hl1'] at hs; simpa using hs
      obtain ⟨rfl, -⟩ := ws_unique hw hw' hc hc' e0
      have e1 : l ++ rest = l' ++ rest' := by simpa using hs
      obtain ⟨rfl, rfl⟩ := lexeme_unique hU hl hl' e1
      obtain ⟨rfl, rfl, rfl⟩ := ih t' hn hn'
      exact ⟨rfl, rfl, rfl⟩

/-- A text without a token at its start is one that the lexer fails on, and conversely. -/
theorem noToken_fail {U : Unicode} (hU : U.Lawful) {d : Nat} {c : Char} {cs : Str}
    (hc : isWhitespaceChar c = false) :
    (∀ l rest, c :: cs = l ++ rest → ¬ Lexeme U (decide (0 < d)) l rest) ↔
      ∃ consumed m, readToken U d c cs = .fail consumed m := by
  constructor
  · intro h
    cases hr : readToken U d c cs with
    | fail consumed m => exact ⟨consumed, m, rfl⟩
    | tok consumed l rest =>
      exfalso
      obtain ⟨w, h1, h2, h3⟩ := read_lexeme hU d hc hr
      obtain ⟨g1, -⟩ := readToken_good _ _ _ _ _ _ _ hr
      exact h l (w ++ rest) (by rw [← g1, h1]; simp) h3
  · rintro ⟨consumed, m, h⟩ l rest e hl
    obtain ⟨c', cs', v, r, h1, h2, h3, h4, h5⟩ := lexeme_read hU d hl
    rw [← e] at h1
    simp at h1
    obtain ⟨rfl, rfl⟩ := h1
    rw [h] at h5
    simp at h5

theorem segs_total {U : Unicode} (hU : U.Lawful) (s : Str) : ∀ last d, ∃ gs ls stuck,
    Segs U last d s gs ls stuck ∧ NoToken U (openBrackets U last d ls) stuck := by
  induction s using text_induction with
  | h s ih =>
    intro last d
    obtain ⟨w, r, rfl, hw, hr | ⟨c, cs, rfl, hc⟩⟩ := split_ws s
    · subst hr
      exact ⟨[w], [], [], .done hw, .inl rfl⟩
    · cases hr : readToken U d c cs with
      | fail consumed m =>
        exact ⟨[w], [], c :: cs, .done hw, .inr ⟨⟨c, cs, rfl, hc⟩, (noToken_fail hU hc).2 ⟨consumed, m, hr⟩⟩⟩
      | tok consumed l rest =>
        obtain ⟨v, h1, h2, h3⟩ := read_lexeme hU d hc hr
        obtain ⟨g1, -, l', hl'⟩ := readToken_good _ _ _ _ _ _ _ hr
        have e : c :: cs = l ++ (v ++ rest) := by rw [← g1, h1]; simp
        have hlen : (v ++ rest).length < (w ++ c :: cs).length := by
          rw [e, hl']
          simp
          omega
        obtain ⟨gs, ls, stuck, i1, i2⟩ := ih (v ++ rest) hlen (some l) (bracketStep U last d l)
        refine ⟨w :: gs, l :: ls, stuck, ?_, i2⟩
        rw [e]
        exact .cons hw h3 i1

theorem segs_lexFrom {U : Unicode} (hU : U.Lawful) {last : Option Str} {d : Nat} {s : Str}
    {gs ls : List Str} {stuck : Str} (h : Segs U last d s gs ls stuck) :
    ∀ p, (last = none → ls.head? ≠ some ['<']) → ∃ toks last', toks.map (·.literal) = ls ∧
      (last' = none → last = none ∧ ls = []) ∧
      lexFrom U p d last s =
        prepend toks (lexFrom U (advanceAll p (interleave gs ls)) (openBrackets U last d ls) last' stuck) := by
  induction h with
  | @done last d w stuck hw =>
    intro p _
    refine ⟨[], last, rfl, fun h => ⟨h, rfl⟩, ?_⟩
    rw [lexFrom_ws _ _ _ _ _ _ hw, prepend_nil]
    rfl
  | @cons last d w l rest gs ls stuck hw hl t ih =>
    intro p hlast
    obtain ⟨toks, last', h1, h2, h3⟩ := ih (advanceAll (advanceAll p w) l) (by simp)
    refine ⟨⟨(advanceAll p w).1, (advanceAll p w).2, l⟩ :: toks, last', by simp [h1], ?_, ?_⟩
    · intro hn
      have := (h2 hn).1
      simp at this
    · rw [lexFrom_lexeme hU p d last hw hl (fun hn hh => hlast hn (by simp [hh])), h3,
        show ∀ (t : Token) ts o, prepend [t] (prepend ts o) = prepend (t :: ts) o from
          fun t ts o => (prepend_append [t] ts o).symm]
      simp only [interleave, advanceAll_append]
      rfl

end Verif.Lex
