import Verif.Analysis.ExprCheck
import Verif.Proofs.Sym
import Verif.Proofs.SlowTop
/-! Single tokens of expressions as the symbolic evaluator sees them. -/
namespace Verif.Sym
open Core Interp Spec
open Slow (StandAt)

theorem upper_of_ascii {U : Unicode} (hU : U.Lawful) : ∀ {l : Str}, (∀ c ∈ l, c.toNat < 128) → U.upper l = l.map Char.toUpper
  | [], _ => rfl
  | c :: cs, h => by
    have := upper_of_ascii hU (l := cs) fun d hd => h d (by simp [hd])
    unfold Unicode.upper at this ⊢
    rw [List.flatMap_cons, this, hU.upper_ascii c (h c (by simp))]
    rfl

theorem litOk_of {U : Unicode} (hU : U.Lawful) {t : Token} {l : Str} (ht : t.literal = l) (h : l ∈ vocab) :
    LitOk U t l := by
  have h1 : ∀ l ∈ vocab, ∀ c ∈ l, c.toNat < 128 := by decide
  refine ⟨ht, ?_⟩
  rw [upper_of_ascii hU (h1 l h), upper_of_ascii Unicode.sample_lawful (h1 l h)]

theorem kw_upper {U : Unicode} (hU : U.Lawful) (k : Kw) : U.upper k.lit = k.lit := by
  have h : ∀ k : Kw, k.lit.map Char.toUpper = k.lit ∧ ∀ c ∈ k.lit, c.toNat < 128 := by
    intro k
    cases k <;> decide +kernel
  rw [upper_of_ascii hU (h k).2, (h k).1]

/-- Which characters can a word of the parser begin with or contain? -/
theorem kw_chars (k : Kw) : (∀ c ∈ k.lit, isDigitChar c = false) ∧ k.lit.head? ≠ some '"' ∧ k.lit.head? ≠ some '\'' ∧
    k.lit.head? ≠ some '@' := by
  cases k <;> decide +kernel

theorem otherOk_of {U : Unicode} (hU : U.Lawful) {t : Token} {ty : NodeType} (up : ∀ k : Kw, t.upper U ≠ k.lit)
    (ident : t.isIdentifier U = (ty == .Identifier)) (num : t.isNumeric = (ty == .NumericLiteral))
    (str : t.isString = (ty == .StringLiteral)) (par : t.isParameter = (ty == .Parameter))
    (hty : ty ∈ [NodeType.Identifier, .NumericLiteral, .StringLiteral, .Parameter])
    (word : ty = .Identifier → wordy t.literal = true) : OtherOk U t ty where
  up := up
  raw := by
    intro k h
    refine up k ?_
    unfold Token.upper
    rw [h, kw_upper hU]
  ident := ident
  num := num
  str := str
  par := par
  word := word
  ty := hty

theorem nameStart_iff {c : Char} : NameStart c ↔ Token.identStart c = true := by
  unfold NameStart Token.identStart
  simp [or_assoc]

theorem digit_iff {c : Char} : Digit c ↔ isDigitChar c = true := by
  unfold Digit isDigitChar
  simp

theorem nameStart_ne {c d : Char} (h : NameStart c) (hd : Token.identStart d = false) : c ≠ d := by
  rintro rfl
  rw [nameStart_iff.1 h] at hd
  cases hd

theorem digit_ne {c d : Char} (h : Digit c) (hd : isDigitChar d = false) : c ≠ d := by
  rintro rfl
  rw [digit_iff.1 h] at hd
  cases hd

theorem nameStart_not_digit {c : Char} (h : NameStart c) : isDigitChar c = false := by
  unfold NameStart at h
  unfold isDigitChar
  rw [Bool.and_eq_false_iff]
  simp only [decide_eq_false_iff_not, Char.le_def, UInt32.le_iff_toNat_le] at *
  have : ('a' : Char).val.toNat = 97 := rfl
  have : ('A' : Char).val.toNat = 65 := rfl
  have : ('9' : Char).val.toNat = 57 := rfl
  rcases h with h | h | rfl
  · right; omega
  · right; omega
  · right; decide

theorem digit_not_start {c : Char} (h : Digit c) : Token.identStart c = false := by
  by_contra hc
  have := nameStart_not_digit (nameStart_iff.2 (by simpa using hc))
  rw [digit_iff.1 h] at this
  cases this

theorem quotedBy_false {t : Token} {c d : Char} {cs : Str} (ht : t.literal = c :: cs) (h : c ≠ d) :
    t.quotedBy d = false := by
  unfold Token.quotedBy
  rw [ht]
  split
  · rfl
  · simp [h]

theorem isIdentifier_false {U : Unicode} {t : Token} {c : Char} {cs : Str} (ht : t.literal = c :: cs) (h : c ≠ '`')
    (hs : Token.identStart c = false) : t.isIdentifier U = false := by
  unfold Token.isIdentifier
  rw [quotedBy_false ht h, ht]
  simp [hs]

theorem isNumeric_false {t : Token} {c : Char} {cs : Str} (ht : t.literal = c :: cs) (h : c ≠ '.')
    (hs : isDigitChar c = false) : t.isNumeric = false := by
  unfold Token.isNumeric
  have h1 : List.takeWhile isDigitChar (c :: cs) = [] := by simp [hs]
  have h2 : List.dropWhile isDigitChar (c :: cs) = c :: cs := by simp [hs]
  simp only [ht, h1, h2]
  split
  · rename_i heq
    cases heq
    exact absurd rfl h
  · rfl

theorem isString_false {t : Token} {c : Char} {cs : Str} (ht : t.literal = c :: cs) (h : c ≠ '"') (h' : c ≠ '\'') :
    t.isString = false := by
  unfold Token.isString
  rw [quotedBy_false ht h, quotedBy_false ht h']; rfl

theorem isParameter_false {t : Token} {c : Char} {cs : Str} (ht : t.literal = c :: cs) (h : c ≠ '?') (h' : c ≠ '@') :
    t.isParameter = false := by
  unfold Token.isParameter
  rw [ht]
  simp [h, h']

theorem dropWhile_all {p : Char → Bool} : ∀ {l : Str}, (∀ c ∈ l, p c = true) → l.dropWhile p = [] ∧ l.takeWhile p = l
  | [], _ => ⟨rfl, rfl⟩
  | c :: cs, h => by
    obtain ⟨h1, h2⟩ := dropWhile_all (l := cs) fun d hd => h d (by simp [hd])
    simp [h c (by simp), h1, h2]

theorem dropWhile_app {p : Char → Bool} {d : Char} {r : Str} (hd : p d = false) : ∀ {l : Str}, (∀ c ∈ l, p c = true) →
    (l ++ d :: r).dropWhile p = d :: r
  | [], _ => by simp [hd]
  | c :: cs, h => by
    have := dropWhile_app (p := p) hd (r := r) (l := cs) fun d hd => h d (by simp [hd])
    simp [h c (by simp), this]

theorem digit_ascii {c : Char} (h : Digit c) : c.toNat < 128 := by
  unfold Digit at h
  simp only [Char.le_def, UInt32.le_iff_toNat_le] at h
  have : ('9' : Char).val.toNat = 57 := rfl
  show c.val.toNat < 128
  omega

theorem digit_upper {c : Char} (h : Digit c) : c.toUpper = c := by
  unfold Digit at h
  simp only [Char.le_def, UInt32.le_iff_toNat_le] at h
  have : ('9' : Char).val.toNat = 57 := rfl
  unfold Char.toUpper
  rw [dif_neg]
  rintro ⟨h1, _⟩
  have : ('a' : Char).val.toNat = 97 := rfl
  rw [UInt32.le_iff_toNat_le] at h1
  omega

/-- The base of a single token. -/
def atomBase (l : Str) (ty : NodeType) : Base :=
  if ty = .BooleanLiteral ∨ ty = .NullLiteral then .lit l else .other ty

theorem atom_upper_digit {U : Unicode} (hU : U.Lawful) {l : Str} {c : Char} (hc : c ∈ l) (hd : Digit c) (k : Kw) :
    U.upper l ≠ k.lit := by
  intro h
  have : c ∈ U.upper l := by
    unfold Unicode.upper
    rw [List.mem_flatMap]
    exact ⟨c, hc, by rw [hU.upper_ascii c (digit_ascii hd), digit_upper hd]; simp⟩
  rw [h] at this
  have := (kw_chars k).1 c this
  rw [digit_iff.1 hd] at this
  cases this

theorem atom_upper_head {U : Unicode} (hU : U.Lawful) {c : Char} {cs : Str} (hc : c = '"' ∨ c = '\'' ∨ c = '@') (k : Kw) :
    U.upper (c :: cs) ≠ k.lit := by
  intro h
  have h1 : (U.upper (c :: cs)).head? = some c := by
    unfold Unicode.upper
    rw [List.flatMap_cons, hU.upper_ascii c (by rcases hc with rfl | rfl | rfl <;> decide)]
    rcases hc with rfl | rfl | rfl <;> rfl
  rw [h] at h1
  obtain ⟨_, h2, h3, h4⟩ := kw_chars k
  rcases hc with rfl | rfl | rfl
  · exact h2 h1
  · exact h3 h1
  · exact h4 h1

theorem atom_base {U : Unicode} (hU : U.Lawful) {T : List Token} {q : Nat} {t : Token} {l : Str} {ty : NodeType}
    (h : AtomIs U l ty) (ht : t.literal = l) : IsBase U T q t (atomBase l ty) := by
  cases h with
  | name c cs h hs hk =>
    show OtherOk U t .Identifier
    have hrest : cs.all Token.identRest = true := by
      rw [List.all_eq_true]
      intro d hd
      unfold Token.identRest
      rcases hs d hd with h | h
      · rw [nameStart_iff.1 h]; simp
      · have := digit_iff.1 h
        unfold isDigitChar at this
        rw [this]; simp
    refine otherOk_of hU (by unfold Token.upper; rw [ht]; exact hk) ?_ ?_ ?_ ?_ (by simp)
      (fun _ => by rw [ht]; simp only [wordy, nameStart_iff.1 h, hrest]; rfl)
    · unfold Token.isIdentifier
      rw [quotedBy_false ht (nameStart_ne h (by decide))]
      have hr : t.isReservedKeyword U = false := by
        unfold Token.isReservedKeyword Token.inKws Token.upper
        rw [List.any_eq_false, ht]
        intro k _
        simpa using hk k
      rw [hr, ht]
      simp only [Bool.false_eq_true, if_false]
      rw [nameStart_iff.1 h]
      rw [hrest]; rfl
    · exact isNumeric_false ht (nameStart_ne h (by decide)) (nameStart_not_digit h)
    · exact isString_false ht (nameStart_ne h (by decide)) (nameStart_ne h (by decide))
    · exact isParameter_false ht (nameStart_ne h (by decide)) (nameStart_ne h (by decide))
  | int c cs h =>
    show OtherOk U t .NumericLiteral
    have hc := h c (by simp)
    refine otherOk_of hU (by unfold Token.upper; rw [ht]; exact atom_upper_digit hU (c := c) (by simp) hc) ?_ ?_ ?_ ?_ (by simp) (fun h => by cases h)
    · exact isIdentifier_false ht (digit_ne hc (by decide)) (digit_not_start hc)
    · unfold Token.isNumeric
      obtain ⟨h1, h2⟩ := dropWhile_all (p := isDigitChar) fun d hd => digit_iff.1 (h d hd)
      simp only [ht, h1, h2]
      rfl
    · exact isString_false ht (digit_ne hc (by decide)) (digit_ne hc (by decide))
    · exact isParameter_false ht (digit_ne hc (by decide)) (digit_ne hc (by decide))
  | frac cs d ds h hs =>
    show OtherOk U t .NumericLiteral
    have hd := hs d (by simp)
    obtain ⟨c, cs', hl, hc⟩ : ∃ c cs', cs ++ '.' :: d :: ds = c :: cs' ∧ (Digit c ∨ c = '.') := by
      cases cs with
      | nil => exact ⟨_, _, rfl, .inr rfl⟩
      | cons c cs => exact ⟨_, _, rfl, .inl (h c (by simp))⟩
    have hne : ∀ {e : Char}, isDigitChar e = false → e ≠ '.' → c ≠ e := by
      intro e h1 h2
      rcases hc with hc | rfl
      · exact digit_ne hc h1
      · exact h2.symm
    have ht' := ht.trans hl
    refine otherOk_of hU (by unfold Token.upper; rw [ht]; exact atom_upper_digit hU (c := d) (by simp) hd) ?_ ?_ ?_ ?_ (by simp) (fun h => by cases h)
    · refine isIdentifier_false ht' (hne (by decide) (by decide)) ?_
      rcases hc with hc | rfl
      · exact digit_not_start hc
      · decide
    · unfold Token.isNumeric
      have h1 := dropWhile_app (p := isDigitChar) (d := '.') (r := d :: ds) (by decide) fun e he => digit_iff.1 (h e he)
      obtain ⟨h2, h3⟩ := dropWhile_all (p := isDigitChar) fun d hd => digit_iff.1 (hs d hd)
      simp only [ht, h1, h2, h3]
      rfl
    · exact isString_false ht' (hne (by decide) (by decide)) (hne (by decide) (by decide))
    · exact isParameter_false ht' (hne (by decide) (by decide)) (hne (by decide) (by decide))
  | string c hc cs =>
    show OtherOk U t .StringLiteral
    have hne : ∀ {e : Char}, e ≠ '"' → e ≠ '\'' → c ≠ e := by
      rintro e h1 h2 rfl
      rcases hc with h | h
      · exact h1 h
      · exact h2 h
    have ht' : t.literal = c :: (cs ++ [c]) := ht
    refine otherOk_of hU (by
      unfold Token.upper
      rw [ht']
      exact atom_upper_head hU (by rcases hc with h | h <;> simp [h])) ?_ ?_ ?_ ?_ (by simp) (fun h => by cases h)
    · exact isIdentifier_false ht' (hne (by decide) (by decide)) (by rcases hc with rfl | rfl <;> decide)
    · exact isNumeric_false ht' (hne (by decide) (by decide)) (by rcases hc with rfl | rfl <;> decide)
    · have hb : ¬ Token.byteLen (c :: (cs ++ [c])) < 2 := by
        have h1 := Char.utf8Size_pos c
        have : ∀ l : Str, Token.byteLen (l ++ [c]) = Token.byteLen l + c.utf8Size := by
          intro l
          induction l with
          | nil => simp [Token.byteLen]
          | cons d l ih => simp only [List.cons_append, Token.byteLen, ih]; omega
        simp only [Token.byteLen, this]
        omega
      have hq : t.quotedBy c = true := by
        unfold Token.quotedBy
        rw [ht', if_neg hb, ← List.cons_append, List.getLast?_append]
        simp
      unfold Token.isString
      rcases hc with rfl | rfl
      · rw [hq]; rfl
      · rw [hq, Bool.or_true]; rfl
    · exact isParameter_false ht' (hne (by decide) (by decide)) (hne (by decide) (by decide))
  | param c cs h hs =>
    show OtherOk U t .Parameter
    refine otherOk_of hU (by unfold Token.upper; rw [ht]; exact atom_upper_head hU (by simp)) ?_ ?_ ?_ ?_ (by simp) (fun h => by cases h)
    · exact isIdentifier_false ht (by decide) (by decide)
    · exact isNumeric_false ht (by decide) (by decide)
    · exact isString_false ht (by decide) (by decide)
    · unfold Token.isParameter; rw [ht]; rfl
  | true => exact litOk_of hU ht (by decide)
  | false => exact litOk_of hU ht (by decide)
  | null => exact litOk_of hU ht (by decide)

theorem atom_first {U : Unicode} (hU : U.Lawful) {l : Str} {ty : NodeType} (h : AtomIs U l ty) :
    atomBase l ty ∈ firstsPlain ∧ l ≠ "NOT".toList := by
  have hb := atom_base hU (T := []) (q := 0) (t := ⟨0, 0, l⟩) h rfl
  cases h with
  | true => exact ⟨by decide, by decide⟩
  | false => exact ⟨by decide, by decide⟩
  | null => exact ⟨by decide, by decide⟩
  | _ =>
    refine ⟨by show Base.other _ ∈ _; decide, ?_⟩
    have hb : OtherOk U _ _ := hb
    exact hb.raw .NOT

end Verif.Sym
