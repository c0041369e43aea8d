import Verif.Spec.Parse
import Verif.Proofs.Tree
import Verif.Proofs.Sample
/-! Case changes and relocation of tokens (C18, C20). -/
namespace Verif
open Core Interp Spec

theorem Char.toUpper_cases (c : Char) :
    (isAsciiLetter c = true ∧ isAsciiLetter c.toUpper = true ∧ c.toUpper.toNat < 128) ∨
    (isAsciiLetter c = false ∧ c.toUpper = c) := by
  by_cases h : isAsciiLetter c = true
  · left
    refine ⟨h, ?_⟩
    have hn : c.toNat < 128 := by
      simp only [isAsciiLetter, Bool.or_eq_true, Bool.and_eq_true, decide_eq_true_eq] at h
      rcases h with ⟨_, h⟩ | ⟨_, h⟩
      · have : c.toNat ≤ 122 := h; omega
      · have : c.toNat ≤ 90 := h; omega
    have key : ∀ n, n < 128 → isAsciiLetter (Char.ofNat n) = true →
      isAsciiLetter (Char.ofNat n).toUpper = true ∧ (Char.ofNat n).toUpper.toNat < 128 := by decide
    have := key c.toNat hn (by simpa using h)
    simpa using this
  · right
    have h' : isAsciiLetter c = false := by simpa using h
    refine ⟨h', Char.toUpper_eq_self c fun hh => ?_⟩
    simp [isAsciiLetter, hh.1, hh.2] at h'

/-- Two characters that are equal up to ASCII case. -/
def CharEq (c d : Char) : Prop := c.toUpper = d.toUpper

theorem CharEq.cases {c d : Char} (h : CharEq c d) :
    (isAsciiLetter c = true ∧ isAsciiLetter d = true) ∨ c = d := by
  unfold CharEq at h
  rcases Char.toUpper_cases c with ⟨h1, h2, _⟩ | ⟨h1, h2⟩ <;>
    rcases Char.toUpper_cases d with ⟨h3, h4, _⟩ | ⟨h3, h4⟩
  · exact .inl ⟨h1, h3⟩
  · rw [h, h4, h3] at h2; cases h2
  · rw [← h, h2, h1] at h4; cases h4
  · exact .inr (by rw [← h2, ← h4, h])

theorem isAsciiLetter_lt {c : Char} (h : isAsciiLetter c = true) : c.toNat < 128 := by
  simp only [isAsciiLetter, Bool.or_eq_true, Bool.and_eq_true, decide_eq_true_eq] at h
  rcases h with ⟨_, h⟩ | ⟨_, h⟩
  · have : c.toNat ≤ 122 := h; omega
  · have : c.toNat ≤ 90 := h; omega

/-- A predicate on characters that does not see the case of ASCII letters. -/
theorem CharEq.pred {p : Char → Bool} {b : Bool}
    (hp : ∀ c, isAsciiLetter c = true → p c = b) {c d : Char} (h : CharEq c d) : p c = p d := by
  rcases h.cases with ⟨h1, h2⟩ | rfl
  · rw [hp c h1, hp d h2]
  · rfl

/-- A non-letter is only equal to itself. -/
theorem CharEq.beq {c d x : Char} (hx : isAsciiLetter x = false) (h : CharEq c d) :
    (c == x) = (d == x) := by
  refine h.pred (p := (· == x)) (b := false) fun c hc => ?_
  apply beq_false_of_ne
  rintro rfl
  rw [hc] at hx; cases hx

theorem forall₂_of_map {α β : Type} {f : α → β} {l l' : List α} (h : l.map f = l'.map f) :
    List.Forall₂ (fun a b => f a = f b) l l' := by
  induction l generalizing l' with
  | nil => cases l' with
    | nil => exact .nil
    | cons => simp at h
  | cons a l ih => cases l' with
    | nil => simp at h
    | cons b l' =>
      simp only [List.map_cons, List.cons.injEq] at h
      exact .cons h.1 (ih h.2)

abbrev LitEq (s s' : Str) : Prop := List.Forall₂ CharEq s s'

theorem SameUpToCase.lit {t t' : Token} (h : SameUpToCase t t') : LitEq t.literal t'.literal :=
  forall₂_of_map h

theorem LitEq.head {s s' : Str} (h : LitEq s s') {x : Char} (hx : isAsciiLetter x = false) :
    (s.head? == some x) = (s'.head? == some x) := by
  cases h with
  | nil => rfl
  | cons h _ => simpa using h.beq hx

theorem LitEq.getLast {s s' : Str} (h : LitEq s s') {x : Char} (hx : isAsciiLetter x = false) :
    (s.getLast? == some x) = (s'.getLast? == some x) := by
  have h2 : LitEq s.reverse s'.reverse := List.rel_reverse h
  have := h2.head hx
  simpa using this

theorem LitEq.all {s s' : Str} (h : LitEq s s') {p : Char → Bool} {b : Bool}
    (hp : ∀ c, isAsciiLetter c = true → p c = b) : s.all p = s'.all p := by
  induction h with
  | nil => rfl
  | cons h _ ih => simp [ih, h.pred hp]

theorem LitEq.beq {s s' x : Str} (h : LitEq s s') (hx : ∀ c ∈ x, isAsciiLetter c = false) :
    (s == x) = (s' == x) := by
  induction h generalizing x with
  | nil => rfl
  | cons h _ ih =>
    cases x with
    | nil => rfl
    | cons c x =>
      have h1 := h.beq (hx c (by simp))
      have h2 := ih (x := x) fun d hd => hx d (by simp [hd])
      simp [h1, h2]

theorem utf8Size_ascii {c : Char} (h : c.toNat < 128) : c.utf8Size = 1 := by
  have : c.val ≤ 127 := by
    have h : c.val.toNat < 128 := h
    rw [UInt32.le_iff_toNat_le]
    have : (127 : UInt32).toNat = 127 := rfl
    omega
  simp [Char.utf8Size, this]

theorem LitEq.byteLen {s s' : Str} (h : LitEq s s') : Token.byteLen s = Token.byteLen s' := by
  induction h with
  | nil => rfl
  | cons h _ ih =>
    simp only [Token.byteLen, ih]
    rcases h.cases with ⟨h1, h2⟩ | rfl
    · rw [utf8Size_ascii (isAsciiLetter_lt h1), utf8Size_ascii (isAsciiLetter_lt h2)]
    · rfl

theorem LitEq.upper {U : Unicode} (hU : U.Lawful) {s s' : Str} (h : LitEq s s') :
    U.upper s = U.upper s' := by
  induction h with
  | nil => rfl
  | cons h _ ih =>
    simp only [Unicode.upper, List.flatMap_cons] at ih ⊢
    rw [ih]
    congr 1
    rcases CharEq.cases h with ⟨h1, h2⟩ | rfl
    · rw [hU.upper_ascii _ (isAsciiLetter_lt h1), hU.upper_ascii _ (isAsciiLetter_lt h2), h]
    · rfl

theorem quotedBy_eq {t t' : Token} (h : LitEq t.literal t'.literal) {x : Char}
    (hx : isAsciiLetter x = false) : t.quotedBy x = t'.quotedBy x := by
  unfold Token.quotedBy
  rw [h.byteLen, h.head hx, h.getLast hx]

theorem isString_eq {t t' : Token} (h : LitEq t.literal t'.literal) : t.isString = t'.isString := by
  unfold Token.isString
  rw [quotedBy_eq h (x := '"') (by decide), quotedBy_eq h (x := '\'') (by decide)]

theorem inKws_case {U : Unicode} (hU : U.Lawful) {t t' : Token} (h : LitEq t.literal t'.literal)
    (ks : List Kw) : t.inKws U ks = t'.inKws U ks := by
  unfold Token.inKws Token.upper
  rw [h.upper hU]

theorem letter_identStart (c : Char) (h : isAsciiLetter c = true) : Token.identStart c = true := by
  simp only [isAsciiLetter, Token.identStart, Bool.or_eq_true] at h ⊢
  tauto

theorem isIdentifier_eq {U : Unicode} (hU : U.Lawful) {t t' : Token} (h : LitEq t.literal t'.literal) :
    t.isIdentifier U = t'.isIdentifier U := by
  unfold Token.isIdentifier Token.isReservedKeyword
  rw [quotedBy_eq h (x := '`') (by decide), inKws_case hU h]
  revert h
  generalize t.literal = s
  generalize t'.literal = s'
  intro h
  cases h with
  | nil => rfl
  | cons h1 h2 =>
    simp only
    rw [h1.pred letter_identStart, LitEq.all h2 (p := Token.identRest) (b := true) fun c hc => by
      simp [Token.identRest, letter_identStart c hc]]

theorem letter_not_digit (c : Char) (h : isAsciiLetter c = true) : isDigitChar c = false := by
  simp only [isAsciiLetter, isDigitChar, Bool.or_eq_true, Bool.and_eq_true, decide_eq_true_eq,
    Bool.and_eq_false_iff, decide_eq_false_iff_not] at h ⊢
  right
  intro h9
  have h9 : c.toNat ≤ 57 := h9
  rcases h with ⟨h, _⟩ | ⟨h, _⟩
  · have h : 97 ≤ c.toNat := h; omega
  · have h : 65 ≤ c.toNat := h; omega

theorem takeWhile_rel {s s' : Str} (h : LitEq s s') {p : Char → Bool} {b : Bool}
    (hp : ∀ c, isAsciiLetter c = true → p c = b) :
    LitEq (s.takeWhile p) (s'.takeWhile p) ∧ LitEq (s.dropWhile p) (s'.dropWhile p) := by
  induction h with
  | nil => exact ⟨.nil, .nil⟩
  | @cons c d s s' h hr ih =>
    simp only [List.takeWhile_cons, List.dropWhile_cons, h.pred hp]
    split
    · exact ⟨.cons h ih.1, ih.2⟩
    · exact ⟨.nil, .cons h hr⟩

theorem isEmpty_rel {s s' : Str} (h : LitEq s s') : s.isEmpty = s'.isEmpty := by
  cases h <;> rfl

theorem expPart_eq {s s' : Str} (h : LitEq s s') : Token.expPart s = Token.expPart s' := by
  cases h with
  | nil => rfl
  | @cons c d r r' h hr =>
    have he : (c == 'e' || c == 'E') = (d == 'e' || d == 'E') := by
      have key : ∀ x : Char, (x == 'e' || x == 'E') = (x.toUpper == 'E') := by
        intro x
        rcases Char.toUpper_cases x with ⟨h1, _⟩ | ⟨h1, h2⟩
        · have : ∀ n, n < 128 → ((Char.ofNat n == 'e' || Char.ofNat n == 'E') =
            ((Char.ofNat n).toUpper == 'E')) := by decide
          simpa using this x.toNat (isAsciiLetter_lt h1)
        · rw [h2]
          have : (x == 'e') = false := by
            apply beq_false_of_ne; rintro rfl; revert h1; decide
          simp [this]
      rw [key, key, h]
    simp only [Token.expPart, he]
    congr 1
    cases hr with
    | nil => rfl
    | @cons c2 d2 r2 r2' h2 hr2 =>
      have h3 : (c2 == '+' || c2 == '-') = (d2 == '+' || d2 == '-') := by
        rw [h2.beq (x := '+') (by decide), h2.beq (x := '-') (by decide)]
      simp only [h3]
      split
      · rw [isEmpty_rel hr2, LitEq.all hr2 letter_not_digit]
      · have h4 : LitEq (c2 :: r2) (d2 :: r2') := .cons h2 hr2
        rw [isEmpty_rel h4, LitEq.all h4 letter_not_digit]

theorem isNumeric_eq {t t' : Token} (h : LitEq t.literal t'.literal) : t.isNumeric = t'.isNumeric := by
  unfold Token.isNumeric
  obtain ⟨h1, h2⟩ := takeWhile_rel h letter_not_digit
  simp only
  revert h1 h2
  generalize List.takeWhile isDigitChar t.literal = a
  generalize List.takeWhile isDigitChar t'.literal = a'
  generalize List.dropWhile isDigitChar t.literal = r
  generalize List.dropWhile isDigitChar t'.literal = r'
  intro h1 h2
  have hdot : (r.head? == some '.') = (r'.head? == some '.') := h2.head (by decide)
  cases h2 with
  | nil => simp [isEmpty_rel h1]
  | @cons c d q q' h hq =>
    simp only [List.head?_cons] at hdot
    by_cases hc : c = '.'
    · subst hc
      have hd : d = '.' := by simpa using hdot
      subst hd
      obtain ⟨h3, h4⟩ := takeWhile_rel hq letter_not_digit
      simp only
      rw [isEmpty_rel h3, expPart_eq h4]
    · have hd : d ≠ '.' := by
        rintro rfl
        simp [hc] at hdot
      split
      · rename_i heq; simp at heq; exact absurd heq.1 hc
      · split
        · rename_i heq; simp at heq; exact absurd heq.1 hd
        · rw [isEmpty_rel h1, expPart_eq (.cons h hq)]

theorem isComment_eq {t t' : Token} (h : LitEq t.literal t'.literal) : t.isComment = t'.isComment := by
  have key : ∀ t : Token, t.isComment = ((t.literal.head? == some '#') ||
      ((t.literal.head? == some '-') && (t.literal.tail.head? == some '-')) ||
      ((t.literal.head? == some '/') && (t.literal.tail.head? == some '*'))) := by
    intro t
    unfold Token.isComment
    generalize t.literal = s
    split
    · rfl
    · rfl
    · rfl
    · rename_i h1 h2 h3
      match s with
      | [] => rfl
      | [c] =>
        have : c ≠ '#' := by rintro rfl; exact h1 _ rfl
        simp [this]
      | c :: d :: r =>
        have : c ≠ '#' := by rintro rfl; exact h1 _ rfl
        have h2' : ¬ (c = '-' ∧ d = '-') := by rintro ⟨rfl, rfl⟩; exact h2 _ rfl
        have h3' : ¬ (c = '/' ∧ d = '*') := by rintro ⟨rfl, rfl⟩; exact h3 _ rfl
        simp [this]
        tauto
  have ht : LitEq t.literal.tail t'.literal.tail := by
    revert h; generalize t.literal = s; generalize t'.literal = s'; intro h
    cases h <;> first | exact .nil | assumption
  rw [key, key, h.head (x := '#') (by decide), h.head (x := '-') (by decide),
    h.head (x := '/') (by decide), ht.head (x := '-') (by decide), ht.head (x := '*') (by decide)]

theorem isBoolean_eq {U : Unicode} (hU : U.Lawful) {t t' : Token} (h : LitEq t.literal t'.literal) :
    t.isBoolean U = t'.isBoolean U := by
  unfold Token.isBoolean Token.upper; rw [h.upper hU]

theorem isParameter_eq {t t' : Token} (h : LitEq t.literal t'.literal) :
    t.isParameter = t'.isParameter := by
  unfold Token.isParameter
  revert h; generalize t.literal = s; generalize t'.literal = s'; intro h
  cases h with
  | nil => rfl
  | cons h _ => simp only [h.beq (x := '?') (by decide), h.beq (x := '@') (by decide)]

theorem isTemplate_eq {t t' : Token} (h : LitEq t.literal t'.literal) :
    t.isTemplate = t'.isTemplate := by
  unfold Token.isTemplate
  revert h; generalize t.literal = s; generalize t'.literal = s'; intro h
  cases h with
  | nil => rfl
  | cons h _ => simp only [h.beq (x := '{') (by decide)]

/-- Constants without letters. -/
def Static.sym : Static where
  raw k := k.lit.all fun c => !isAsciiLetter c
  chr c := !isAsciiLetter c
  key _ := true

theorem okBy_sym : ∀ f ∈ Fn.all, (Program.defs f).body.okBy .sym = true := by decide +kernel

theorem tokRel_case {U : Unicode} (hU : U.Lawful) {RE : Err → Err → Prop} {t t' : Token}
    (h : LitEq t.literal t'.literal)
    (he : ∀ m, RE ⟨t.line, t.column, .site m t.literal⟩ ⟨t'.line, t'.column, .site m t'.literal⟩) : TokRel U .sym RE t t' where
  upper := h.upper hU
  ident := isIdentifier_eq hU h
  str := isString_eq h
  num := isNumeric_eq h
  raw k hk := h.beq (by simpa [Static.sym] using hk)
  nil := by
    revert h; generalize t.literal = s; generalize t'.literal = s'; intro h
    cases h <;> simp
  first c hc := by
    have := h.head (x := c) (by simpa [Static.sym] using hc)
    simpa using this
  last c hc := by
    have := h.getLast (x := c) (by simpa [Static.sym] using hc)
    simpa using this
  err := he

end Verif
