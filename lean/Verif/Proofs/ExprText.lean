import Verif.Proofs.ExprTop
import Verif.Props.Lexemes
import Verif.Spec.Lexeme
/-! Words of statements with white space between them are a text with these words as its tokens. -/
namespace Verif.Sym
open Spec

/-- White space or the end of the text. -/
def Blank (rest : Str) : Prop := ∀ c r, rest = c :: r → isWhitespaceChar c = true

/-- The word is a token in front of white space, and opens no type. -/
structure Good (U : Unicode) (l : Str) : Prop where
  lex : ∀ rest, Blank rest → Lexeme U false l rest
  up : U.upper l ≠ "ARRAY".toList ∧ U.upper l ≠ "STRUCT".toList

/-- A string ends with the first quote that is not escaped. -/
def Closed (l : Str) : Prop := ∀ q body, (q = '"' ∨ q = '\'') → l = q :: (body ++ [q]) → QuotedOnce q l body

theorem blank_ne {c d : Char} {rest r : Str} (h : Blank rest) (hd : isWhitespaceChar d = false) (he : rest = c :: r) : c ≠ d := by
  rintro rfl
  rw [h c r he] at hd
  cases hd

theorem ws_not_digit {c : Char} (h : isWhitespaceChar c = true) : isDigitChar c = false := by
  cases hd : isDigitChar c with
  | false => rfl
  | true =>
    exfalso
    have h2 := digit_iff.2 hd
    unfold Digit at h2
    unfold isWhitespaceChar at h
    simp only [Char.le_def, UInt32.le_iff_toNat_le] at h2
    have e1 : ('9' : Char).val.toNat = 57 := rfl
    have e2 : ('0' : Char).val.toNat = 48 := rfl
    have e3 : c.toNat = c.val.toNat := rfl
    simp at h
    omega

theorem blank_inWord {U : Unicode} (hU : U.Lawful) {rest : Str} (h : Blank rest) : NotBefore (InWord U) rest := by
  intro c r he hc
  have hw := h c r he
  rcases hc with hc | hc | hc
  · rw [hU.alpha_not_ws c hc] at hw; cases hw
  · rw [ws_not_digit hw] at hc; cases hc
  · subst hc; revert hw; decide

theorem nameStart_ascii {c : Char} (h : NameStart c) : c.toNat < 128 := by
  unfold NameStart at h
  simp only [Char.le_def, UInt32.le_iff_toNat_le] at h
  have : ('z' : Char).val.toNat = 122 := rfl
  have : ('Z' : Char).val.toNat = 90 := rfl
  show c.val.toNat < 128
  rcases h with h | h | rfl
  · omega
  · omega
  · decide

theorem starts_of_name {U : Unicode} (hU : U.Lawful) {c : Char} (h : NameStart c) : StartsWord U c := by
  unfold StartsWord
  rw [hU.alpha_ascii c (nameStart_ascii h)]
  unfold NameStart at h
  unfold isAsciiLetter
  rcases h with h | h | h
  · left; simp [h]
  · left; simp [h]
  · exact .inr h

theorem word_of_name {U : Unicode} (hU : U.Lawful) {c : Char} {cs : Str} (h : NameStart c)
    (hs : ∀ d ∈ cs, NameStart d ∨ Digit d) : IsWordText U (c :: cs) := by
  refine ⟨c, cs, rfl, starts_of_name hU h, ?_⟩
  intro d hd
  rcases hs d hd with h | h
  · rcases starts_of_name hU h with h | h
    · exact .inl h
    · exact .inr (.inr h)
  · exact .inr (.inl (digit_iff.1 h))

theorem good_of_kw {U : Unicode} {l : Str} (h : ∀ k : Kw, U.upper l ≠ k.lit)
    (hl : ∀ rest, Blank rest → Lexeme U false l rest) : Good U l := ⟨hl, h .ARRAY, h .STRUCT⟩

theorem blank_digit {rest : Str} (h : Blank rest) : NotBefore (fun c => isDigitChar c = true) rest := by
  intro c r he hc
  rw [ws_not_digit (h c r he)] at hc
  cases hc

theorem blank_not {rest : Str} (h : Blank rest) {cs : List Char} (hcs : ∀ c ∈ cs, isWhitespaceChar c = false) :
    NotBefore (fun c => c ∈ cs) rest := by
  intro c r he hc
  have := h c r he
  rw [hcs c hc] at this
  cases this

/-- A character of a name: as `NameStart`. -/
def nameChar (c : Char) : Bool := Token.identStart c

/-- The words of the shapes: names, symbols of two characters and other characters. -/
def vocabLex (l : Str) : Bool :=
  (match l with | c :: cs => nameChar c && cs.all nameChar | [] => false) ||
    (doubles false).contains l ||
    (match l with
      | [c] => decide (c.toNat < 128) && !isWhitespaceChar c && !isDigitChar c && !isAsciiLetter c && c != '_' &&
          !['"', '\'', '`', '#', '@', '{'].contains c
      | _ => false)

theorem vocab_lex : ∀ l ∈ vocab, vocabLex l = true := by decide +kernel

theorem vocab_up : ∀ l ∈ vocab, (∀ c ∈ l, c.toNat < 128) ∧ l.map Char.toUpper ≠ "ARRAY".toList ∧
    l.map Char.toUpper ≠ "STRUCT".toList := by decide +kernel

theorem double_second {c d : Char} (h : [c, d] ∈ doubles false) : isWhitespaceChar d = false := by
  have : ∀ l ∈ doubles false, ∀ d ∈ l, isWhitespaceChar d = false := by decide
  exact this _ h d (by simp)

theorem good_vocab {U : Unicode} (hU : U.Lawful) {l : Str} (h : l ∈ vocab) : Good U l := by
  obtain ⟨h1, h2, h3⟩ := vocab_up l h
  refine ⟨?_, by rw [upper_of_ascii hU h1]; exact h2, by rw [upper_of_ascii hU h1]; exact h3⟩
  intro rest hr
  have hv := vocab_lex l h
  unfold vocabLex at hv
  simp only [Bool.or_eq_true] at hv
  rcases hv with (hv | hv) | hv
  · split at hv
    · rename_i c cs
      simp only [Bool.and_eq_true, List.all_eq_true] at hv
      exact .word (word_of_name hU (nameStart_iff.2 hv.1) fun d hd => .inl (nameStart_iff.2 (hv.2 d hd))) (blank_inWord hU hr)
    · cases hv
  · exact .double (by simpa using hv)
  · split at hv
    · rename_i c
      simp only [Bool.and_eq_true, Bool.not_eq_true', bne_iff_ne, ne_eq, decide_eq_true_eq] at hv
      obtain ⟨⟨⟨⟨⟨a1, a2⟩, a3⟩, a4⟩, a5⟩, a6⟩ := hv
      refine .single ?_ ?_
      · rintro (h | h | h | h | ⟨_, d, r, h, hd⟩ | ⟨_, r, h⟩ | ⟨_, r, h⟩)
        · rw [h] at a2; cases a2
        · rw [h] at a3; cases a3
        · rcases h with h | h
          · rw [hU.alpha_ascii c a1, a4] at h; cases h
          · exact a5 h
        · have := List.contains_iff_mem.2 h
          rw [a6] at this
          cases this
        · exact blank_digit hr d r h hd
        · exact blank_ne hr (d := '-') (by decide) h rfl
        · exact blank_ne hr (d := '*') (by decide) h rfl
      · intro d r he hd
        have := hr d r he
        rw [double_second hd] at this
        cases this
    · cases hv

theorem good_atom {U : Unicode} (hU : U.Lawful) {l : Str} {ty : NodeType} (h : AtomIs U l ty) (hc : Closed l) : Good U l := by
  cases h with
  | name c cs h hs hk => exact good_of_kw hk fun rest hr => .word (word_of_name hU h hs) (blank_inWord hU hr)
  | int c cs h =>
    refine good_of_kw (atom_upper_digit hU (c := c) (by simp) (h c (by simp))) fun rest hr => .number ?_
    refine ⟨c :: cs, [], [], by simp, fun d hd => digit_iff.1 (h d hd), .inl rfl, .inl rfl, fun h => (by cases h), blank_digit hr,
      fun _ => ?_, fun _ _ => ?_, fun h => (by cases h)⟩
    · have := blank_not hr (cs := ['e', 'E']) (by decide)
      simpa using this
    · have := blank_not hr (cs := ['.']) (by decide)
      simpa using this
  | frac cs d ds h hs =>
    refine good_of_kw (atom_upper_digit hU (c := d) (by simp) (hs d (by simp))) fun rest hr => .number ?_
    refine ⟨cs, '.' :: d :: ds, [], by simp, fun d hd => digit_iff.1 (h d hd),
      .inr ⟨d :: ds, rfl, fun d hd => digit_iff.1 (hs d hd)⟩, .inl rfl, fun _ => ⟨d, ds, rfl⟩, blank_digit hr,
      fun _ => ?_, fun h => (by cases h), fun h => (by cases h)⟩
    have := blank_not hr (cs := ['e', 'E']) (by decide)
    simpa using this
  | string q hq cs =>
    refine good_of_kw (atom_upper_head hU (cs := cs ++ [q]) (by rcases hq with h | h <;> simp [h])) fun rest hr =>
      .string hq (hc q cs hq rfl) fun _ => ?_
    intro c r he
    exact blank_ne hr (by rcases hq with rfl | rfl <;> decide) he
  | param c cs h hs =>
    exact good_of_kw (atom_upper_head hU (by simp)) fun rest hr =>
      .parameter (n := 1) (Nat.le_refl _) (word_of_name hU h hs) (blank_inWord hU hr)
  | true => exact good_vocab hU (by decide)
  | false => exact good_vocab hU (by decide)
  | null => exact good_vocab hU (by decide)

theorem good_stmt {U : Unicode} (hU : U.Lawful) {s : Stmt} (h : s.Ok U) : ∀ l ∈ s.words, Closed l → Good U l :=
  all_stmt (P := fun l => Closed l → Good U l) (fun _ _ h hc => good_atom hU h hc) (fun _ h _ => good_vocab hU h) h

theorem openBrackets_zero {U : Unicode} : ∀ (ls : List Str) (prev : Option Str), (∀ p, prev = some p → Good U p) →
    (∀ l ∈ ls, Good U l) → openBrackets U prev 0 ls = 0
  | [], _, _, _ => rfl
  | l :: ls, prev, hp, h => by
    have : bracketStep U prev 0 l = 0 := by
      unfold bracketStep
      split
      · split
        · rename_i p
          have := (hp p rfl).up
          exact if_neg (fun h => h.elim this.1 this.2)
        · rfl
      · split <;> rfl
    show openBrackets U (some l) (bracketStep U prev 0 l) ls = 0
    rw [this]
    exact openBrackets_zero ls _ (fun p hp => by cases hp; exact h l (by simp)) fun m hm => h m (by simp [hm])

theorem tokenization {U : Unicode} {gaps lits : List Str} (hlen : gaps.length = lits.length + 1)
    (hws : ∀ g ∈ gaps, AllWs g) (hsep : ∀ g ∈ gaps.tail.dropLast, g ≠ []) (hg : ∀ l ∈ lits, Good U l) :
    IsTokenization U (interleave gaps lits) gaps lits where
  count := hlen
  blank := hws
  text := rfl
  token := by
    intro i l hl
    rw [openBrackets_zero _ _ (fun p h => by cases h) fun m hm => hg m (List.mem_of_mem_take hm)]
    refine (hg l (List.mem_of_getElem? hl)).lex _ ?_
    have hi : i < lits.length := by
      rcases Nat.lt_or_ge i lits.length with h | h
      · exact h
      · rw [List.getElem?_eq_none h] at hl; cases hl
    have hi' : i + 1 < gaps.length := by omega
    have hmem : gaps[i + 1] ∈ gaps := List.getElem_mem _
    rw [List.drop_eq_getElem_cons hi']
    intro c r he
    rcases Nat.lt_or_ge (i + 1) lits.length with h | h
    · rw [List.drop_eq_getElem_cons h] at he
      have hne : gaps[i + 1] ≠ [] := by
        refine hsep _ ?_
        have h1 : i < gaps.tail.dropLast.length := by simp; omega
        have h2 : gaps.tail.dropLast[i] = gaps[i + 1] := by simp
        rw [← h2]
        exact List.getElem_mem _
      cases hgap : gaps[i + 1] with
      | nil => exact absurd hgap hne
      | cons d ds =>
        rw [hgap] at he
        rw [hgap] at hmem
        cases he
        exact hws _ hmem c (by simp)
    · rw [List.drop_eq_nil_of_le h] at he
      have he : gaps[i + 1] = c :: r := he
      exact hws _ hmem c (by rw [he]; simp)

theorem head_stmt {U : Unicode} {ss : List Stmt} (h : ∀ s ∈ ss, s.Ok U) : (ss.flatMap Stmt.words).head? ≠ some ['<'] := by
  cases ss with
  | nil => simp
  | cons s ss =>
    obtain ⟨hsh, _⟩ := h s (by simp)
    obtain ⟨_, _, _, _, l, is, he, hl⟩ := stmt_facts hsh
    have : ∃ r, s.words = l :: r := by
      unfold Stmt.words
      rw [he]
      exact ⟨_, rfl⟩
    obtain ⟨r, hr⟩ := this
    rw [List.flatMap_cons, hr]
    intro h
    have : ∀ l ∈ heads, l ≠ ['<'] := by decide
    exact this l hl (by simpa using h)

end Verif.Sym
