import Verif.Proofs.LexerRun
import Verif.Analysis.Sym
/-! Two words in a text are separated by white space. -/
namespace Verif.Lex
open Verif.Spec
open Sym (wordy)

theorem identStart_ascii {c : Char} (h : Token.identStart c = true) :
    c.toNat < 128 ∧ (isAsciiLetter c = true ∨ c = '_') := by
  unfold Token.identStart at h
  simp only [Bool.or_eq_true, Bool.and_eq_true, decide_eq_true_eq, beq_iff_eq] at h
  have h1 : ('z' : Char).val.toNat = 122 := rfl
  have h2 : ('Z' : Char).val.toNat = 90 := rfl
  simp only [Char.le_def, UInt32.le_iff_toNat_le] at h
  rcases h with (h | h) | rfl
  · refine ⟨by show c.val.toNat < 128; omega, .inl ?_⟩
    unfold isAsciiLetter
    simp only [Bool.or_eq_true, Bool.and_eq_true, decide_eq_true_eq, Char.le_def, UInt32.le_iff_toNat_le]
    exact .inl h
  · refine ⟨by show c.val.toNat < 128; omega, .inl ?_⟩
    unfold isAsciiLetter
    simp only [Bool.or_eq_true, Bool.and_eq_true, decide_eq_true_eq, Char.le_def, UInt32.le_iff_toNat_le]
    exact .inr h
  · exact ⟨by decide, .inr rfl⟩

theorem identStart_lex {U : Unicode} (hU : U.Lawful) {c : Char} (h : Token.identStart c = true) :
    identStart U c = true := by
  obtain ⟨h1, h2⟩ := identStart_ascii h
  unfold identStart
  rw [hU.alpha_ascii c h1]
  rcases h2 with h2 | rfl
  · rw [h2]; rfl
  · simp

theorem identChar_lex {U : Unicode} (hU : U.Lawful) {c : Char} (h : Token.identStart c = true) :
    identChar U c = true := by
  have := identStart_lex hU h
  unfold identStart at this
  unfold identChar
  rcases Bool.or_eq_true _ _ ▸ this with h | h <;> simp [h]

theorem identStart_notDigit {c : Char} (h : Token.identStart c = true) : isDigitChar c = false := by
  unfold Token.identStart at h
  unfold isDigitChar
  simp only [Bool.or_eq_true, Bool.and_eq_true, decide_eq_true_eq, beq_iff_eq] at h
  rw [Bool.and_eq_false_iff]
  simp only [decide_eq_false_iff_not, Char.le_def, UInt32.le_iff_toNat_le] at *
  have : ('a' : Char).val.toNat = 97 := rfl
  have : ('A' : Char).val.toNat = 65 := rfl
  have : ('9' : Char).val.toNat = 57 := rfl
  rcases h with (h | h) | rfl
  · right; omega
  · right; omega
  · right; decide

theorem readToken_word {U : Unicode} (hU : U.Lawful) {d : Nat} {c : Char} {cs : Str}
    (h : Token.identStart c = true) : readToken U d c cs = Read.exact (readIdentifier U (c :: cs)) := by
  have h1 := identStart_lex hU h
  have h2 := identStart_notDigit h
  unfold readToken
  dsimp only
  split
  all_goals first
    | (exfalso; revert h; decide)
    | (rw [h2, h1]; rfl)

theorem advanceAll_line : ∀ (s : Str) (p : Nat × Nat), p.1 ≤ (advanceAll p s).1 ∧
    ((advanceAll p s).1 = p.1 → (advanceAll p s).2 = p.2 + s.length)
  | [], p => ⟨Nat.le_refl _, fun _ => rfl⟩
  | c :: s, p => by
    obtain ⟨h1, h2⟩ := advanceAll_line s (advance p c)
    have h3 : advanceAll p (c :: s) = advanceAll (advance p c) s := rfl
    rw [h3]
    unfold advance at *
    split at h1
    · rename_i hc
      simp only [hc, if_true] at *
      exact ⟨by omega, fun h => by omega⟩
    · rename_i hc
      simp only [hc, if_false] at *
      refine ⟨h1, fun h => ?_⟩
      rw [h2 h]
      simp only [List.length_cons]
      omega

/-- No two words in the list stand next to each other without white space between them. -/
def Apart (T : List Token) : Prop := ∀ i a b, T[i]? = some a → T[i + 1]? = some b → wordy a.literal = true →
  wordy b.literal = true → Interp.adjacentToks a b = false

theorem run_apart {U : Unicode} (hU : U.Lawful) {p : Nat × Nat} {d : Nat} {last : Option Str} {s : Str}
    {ts : List Token} (h : Run U p d last s ts) : Apart ts := by
  induction h with
  | @done p d last w hw =>
    intro i a b _ h2
    simp at h2
  | @tok p d d' last w c cs consumed lit rest ts hw hc h2 h3 hr ih =>
    intro i a b ha hb
    cases i with
    | succ i => exact ih i a b (by simpa using ha) (by simpa using hb)
    | zero =>
      simp at ha hb
      subst ha
      intro hwa hwb
      obtain ⟨g1, ⟨g2, g3, g4⟩, g5, g6⟩ := readToken_good _ _ _ _ _ _ _ h3
      simp only [g6, wordy, Bool.and_eq_true] at hwa
      rw [readToken_word hU hwa.1] at h3
      simp only [Read.exact, readIdentifier, Read.tok.injEq] at h3
      obtain ⟨k1, k2, k3⟩ := h3
      have k : consumed = lit := k1.symm.trans k2
      cases hr with
      | @done _ _ _ w' hw' =>
        simp at hb
        subst hb
        cases hwb
      | @tok _ _ _ _ w' c' cs' consumed' lit' rest' ts' hw' hc' h2' h3' hr' =>
        simp at hb
        subst hb
        obtain ⟨_, _, g5', g6'⟩ := readToken_good _ _ _ _ _ _ _ h3'
        simp only [g6', wordy, Bool.and_eq_true] at hwb
        rw [Bool.eq_false_iff]
        intro hcon
        simp only [Interp.adjacentToks, Bool.and_eq_true, beq_iff_eq] at hcon
        obtain ⟨e1, e2⟩ := hcon
        obtain ⟨l1, l2⟩ := advanceAll_line consumed (advanceAll p w)
        obtain ⟨l3, l4⟩ := advanceAll_line w' (advanceAll (advanceAll p w) consumed)
        have l5 := l2 (by omega)
        have l6 := l4 (by omega)
        rw [k] at *
        cases w' with
        | cons x xs => simp only [List.length_cons] at l6; omega
        | nil =>
          have := spanP_snd_head _ _ _ _ k3
          rw [identChar_lex hU hwb.1] at this
          cases this

theorem tokenize_apart {U : Unicode} (hU : U.Lawful) {code : Str} {T : List Token} (h : tokenize U code = .ok T) :
    Apart T := run_apart hU (tokenize_run h)

end Verif.Lex
