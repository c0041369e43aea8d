import Verif.Proofs.LexerRun
/-! The lexer commutes with changing the case of ASCII letters. -/
namespace Verif.Lex
open Verif.Spec

/-- The lower case ASCII letters. -/
def lowers : List Char := "abcdefghijklmnopqrstuvwxyz".toList

theorem upper_cases (c : Char) : c.toUpper = c ∨ c ∈ lowers := by
  by_cases h : c.val ≥ 'a'.val ∧ c.val ≤ 'z'.val
  · right
    have h1 : 97 ≤ c.toNat := UInt32.le_iff_toNat_le.1 h.1
    have h2 : c.toNat ≤ 122 := UInt32.le_iff_toNat_le.1 h.2
    have h3 : c = Char.ofNat c.toNat := (Char.ofNat_toNat c).symm
    have h4 : ∀ n, 97 ≤ n → n ≤ 122 → Char.ofNat n ∈ lowers := by
      intro n a b
      have : ∀ k : Fin 26, Char.ofNat (97 + k.val) ∈ lowers := by decide
      have := this ⟨n - 97, by omega⟩
      have e : 97 + (n - 97) = n := by omega
      simpa [e] using this
    rw [h3]
    exact h4 _ h1 h2
  · left
    exact dif_neg h

theorem upper_lift {P : Char → Char → Prop} (h1 : ∀ c, P c c) (h2 : ∀ c ∈ lowers, P c c.toUpper) (c : Char) :
    P c c.toUpper := by
  rcases upper_cases c with h | h
  · have := h1 c
    rw [h]; exact this
  · exact h2 c h

theorem upper_ws (c : Char) : isWhitespaceChar c.toUpper = isWhitespaceChar c :=
  upper_lift (P := fun c d => isWhitespaceChar d = isWhitespaceChar c) (fun _ => rfl) (by decide) c

theorem upper_digit (c : Char) : isDigitChar c.toUpper = isDigitChar c :=
  upper_lift (P := fun c d => isDigitChar d = isDigitChar c) (fun _ => rfl) (by decide) c

/-- Characters that no change of case affects. -/
def fixed (x : Char) : Prop := ∀ c ∈ lowers, c ≠ x ∧ c.toUpper ≠ x

instance (x : Char) : Decidable (fixed x) := inferInstanceAs (Decidable (∀ c ∈ lowers, _))

theorem upper_eq (c : Char) {x : Char} (hx : fixed x) : c.toUpper = x ↔ c = x :=
  upper_lift (P := fun c d => d = x ↔ c = x) (fun _ => Iff.rfl)
    (fun c hc => ⟨fun h => absurd h (hx c hc).2, fun h => absurd h (hx c hc).1⟩) c

theorem upper_beq (c : Char) {x : Char} (hx : fixed x) : (c.toUpper == x) = (c == x) := by
  rw [Bool.eq_iff_iff, beq_iff_eq, beq_iff_eq, upper_eq c hx]

theorem upper_e (c : Char) : (c.toUpper = 'E' ∨ c.toUpper = 'e') ↔ (c = 'E' ∨ c = 'e') :=
  upper_lift (P := fun c d => (d = 'E' ∨ d = 'e') ↔ (c = 'E' ∨ c = 'e')) (fun _ => Iff.rfl) (by decide) c

theorem upper_idem (c : Char) : c.toUpper.toUpper = c.toUpper :=
  upper_lift (P := fun _ d => c.toUpper.toUpper = c.toUpper) (fun _ => by
    rcases upper_cases c with h | h
    · rw [h, h]
    · have : ∀ c ∈ lowers, c.toUpper.toUpper = c.toUpper := by decide
      exact this c h) (fun _ _ => by
    rcases upper_cases c with h | h
    · rw [h, h]
    · have : ∀ c ∈ lowers, c.toUpper.toUpper = c.toUpper := by decide
      exact this c h) c

theorem lower_facts : ∀ c ∈ lowers, c.toNat < 128 ∧ c.toUpper.toNat < 128 ∧ isAsciiLetter c = true ∧
    isAsciiLetter c.toUpper = true := by decide

theorem upper_alpha {U : Unicode} (hU : U.Lawful) (c : Char) : U.isAlphabetic c.toUpper = U.isAlphabetic c := by
  rcases upper_cases c with h | h
  · rw [h]
  · obtain ⟨a, b, d, e⟩ := lower_facts c h
    rw [hU.alpha_ascii _ a, hU.alpha_ascii _ b, d, e]

theorem upper_upper {U : Unicode} (hU : U.Lawful) (c : Char) : U.toUpper c.toUpper = U.toUpper c := by
  rcases upper_cases c with h | h
  · rw [h]
  · obtain ⟨a, b, _, _⟩ := lower_facts c h
    rw [hU.upper_ascii _ a, hU.upper_ascii _ b, upper_idem]

/-- Change all letters to capitals. -/
def up (s : Str) : Str := s.map Char.toUpper

@[simp] theorem up_nil : up [] = [] := rfl
@[simp] theorem up_cons (c : Char) (s : Str) : up (c :: s) = c.toUpper :: up s := rfl
@[simp] theorem up_append (s t : Str) : up (s ++ t) = up s ++ up t := List.map_append ..
@[simp] theorem up_length (s : Str) : (up s).length = s.length := List.length_map ..

theorem up_upper {U : Unicode} (hU : U.Lawful) (s : Str) : U.upper (up s) = U.upper s := by
  induction s with
  | nil => rfl
  | cons c s ih =>
    simp only [Unicode.upper, up_cons, List.flatMap_cons] at ih ⊢
    rw [ih, upper_upper hU]

theorem up_head (s : Str) {x : Char} (hx : fixed x) : (up s).head? = some x ↔ s.head? = some x := by
  cases s with
  | nil => simp
  | cons c s => simpa using upper_eq c hx

theorem advance_up (p : Nat × Nat) (c : Char) : advance p c.toUpper = advance p c := by
  unfold advance
  simp only [upper_eq c (x := '\n') (by decide)]

theorem advanceAll_up (s : Str) : ∀ p, advanceAll p (up s) = advanceAll p s := by
  induction s with
  | nil => intro p; rfl
  | cons c s ih =>
    intro p
    simp only [advanceAll, up_cons, List.foldl_cons, advance_up] at ih ⊢
    exact ih _

theorem spanP_up {p : Char → Bool} (hp : ∀ c, p c.toUpper = p c) (s : Str) :
    spanP p (up s) = (up (spanP p s).1, up (spanP p s).2) := by
  induction s with
  | nil => rfl
  | cons c s ih =>
    simp only [up_cons, spanP, hp c, ih]
    split <;> rfl

/-- Both parts of a split. -/
def up2 : Option (Str × Str) → Option (Str × Str)
  | some (a, b) => some (up a, up b)
  | none => none

theorem throughChar_up {q : Char} (hq : fixed q) (s : Str) : throughChar q (up s) = up2 (throughChar q s) := by
  induction s with
  | nil => rfl
  | cons c s ih =>
    simp only [up_cons, throughChar, upper_eq c hq, ih]
    split
    · rfl
    · cases throughChar q s <;> rfl

theorem fixed_upper {c : Char} (h : fixed c) : c.toUpper = c := (upper_eq c h).2 rfl

theorem readBackQuoted_up {c : Char} (hc : fixed c) (s : Str) :
    readBackQuoted (up (c :: s)) = up2 (readBackQuoted (c :: s)) := by
  simp only [up_cons, fixed_upper hc, readBackQuoted, throughChar_up hc]
  cases throughChar c s <;> simp [up2, fixed_upper hc]

theorem trimEnd_up (s : Str) : trimEnd (up s) = up (trimEnd s) := by
  induction s with
  | nil => rfl
  | cons c s ih =>
    simp only [up_cons, trimEnd, ih]
    cases trimEnd s with
    | nil => simp only [up_nil, upper_ws]; split <;> rfl
    | cons d t => rfl

theorem readComment_up (s : Str) : readComment (up s) = (up (readComment s).1, up (readComment s).2) :=
  spanP_up (fun c => by
    rw [Bool.eq_iff_iff]; simp [upper_eq c (x := '\n') (by decide)]) s

theorem readMultilineComment_up (s : Str) : readMultilineComment (up s) = up2 (readMultilineComment s) := by
  induction s with
  | nil => rfl
  | cons c s ih =>
    simp only [up_cons, readMultilineComment, upper_eq c (x := '*') (by decide), up_head s (x := '/') (by decide), ih]
    split
    · next h =>
      obtain ⟨rfl, h⟩ := h
      cases s with
      | nil => simp at h
      | cons d s => rfl
    · cases readMultilineComment s <;> rfl

theorem stringLoop_up {q : Char} (hq : fixed q) (s : Str) : ∀ odd, stringLoop q odd (up s) = up2 (stringLoop q odd s) := by
  induction s with
  | nil => intro odd; rfl
  | cons c s ih =>
    intro odd
    simp only [up_cons, stringLoop, upper_eq c hq, upper_eq c (x := '\\') (by decide), ih]
    split
    · rfl
    · cases stringLoop q (if c = '\\' then !odd else false) s <;> rfl

theorem readString_up {c : Char} (hc : fixed c) (s : Str) : readString (up (c :: s)) = up2 (readString (c :: s)) := by
  simp only [up_cons, fixed_upper hc, readString, stringLoop_up hc]
  cases stringLoop c false s <;> simp [up2, fixed_upper hc]

theorem up_tail (s : Str) : (up s).tail = up s.tail := by cases s <;> rfl

theorem multilineStringLoop_up {q : Char} (hq : fixed q) (s : Str) :
    ∀ odd, multilineStringLoop q odd (up s) = up2 (multilineStringLoop q odd s) := by
  induction s with
  | nil => intro odd; rfl
  | cons c s ih =>
    intro odd
    simp only [up_cons, multilineStringLoop, upper_eq c hq, upper_eq c (x := '\\') (by decide), ih, up_tail,
      up_head _ hq]
    split
    · simp [up2, fixed_upper hq]
    · cases multilineStringLoop q (if c = '\\' then !odd else false) s <;> rfl

theorem readMultilineString_up {c : Char} (hc : fixed c) (s : Str) :
    readMultilineString (up (c :: s)) = up2 (readMultilineString (c :: s)) := by
  match s with
  | [] => rfl
  | [_] => rfl
  | a :: b :: s =>
    simp only [up_cons, fixed_upper hc, readMultilineString, multilineStringLoop_up hc]
    cases multilineStringLoop c false s <;> simp [up2, fixed_upper hc]

theorem readFraction_up (s : Str) : readFraction (up s) = (up (readFraction s).1, up (readFraction s).2) := by
  cases s with
  | nil => rfl
  | cons c s =>
    by_cases h : c = '.'
    · subst h
      have : up ('.' :: s) = '.' :: up s := rfl
      rw [this]
      simp only [readFraction, spanP_up upper_digit]
      rfl
    · have h' : c.toUpper ≠ '.' := fun he => h ((upper_eq c (by decide)).1 he)
      have k : ∀ (d : Char) (t : Str), d ≠ '.' → readFraction (d :: t) = ([], d :: t) := by
        intro d t hd
        unfold readFraction
        split
        · next he => cases he; exact absurd rfl hd
        · rfl
      rw [up_cons, k _ _ h', k _ _ h]
      rfl

theorem readSign_up (s : Str) : readSign (up s) = (up (readSign s).1, up (readSign s).2) := by
  cases s with
  | nil => rfl
  | cons c s =>
    simp only [up_cons, readSign, upper_eq c (x := '+') (by decide), upper_eq c (x := '-') (by decide)]
    split <;> rfl

theorem readExponent_up (s : Str) : readExponent (up s) = (up (readExponent s).1, up (readExponent s).2) := by
  cases s with
  | nil => rfl
  | cons c s =>
    simp only [up_cons, readExponent, upper_e, readSign_up, spanP_up upper_digit]
    split
    · simp
    · rfl

theorem readNumber_up (s : Str) : readNumber (up s) = (up (readNumber s).1, up (readNumber s).2) := by
  simp only [readNumber, spanP_up upper_digit, readFraction_up, readExponent_up, up_append]

theorem identStart_up {U : Unicode} (hU : U.Lawful) (c : Char) : identStart U c.toUpper = identStart U c := by
  simp only [identStart, upper_alpha hU, upper_beq c (x := '_') (by decide)]

theorem identChar_up {U : Unicode} (hU : U.Lawful) (c : Char) : identChar U c.toUpper = identChar U c := by
  simp only [identChar, upper_alpha hU, upper_digit, upper_beq c (x := '_') (by decide)]

theorem readIdentifier_up {U : Unicode} (hU : U.Lawful) (s : Str) :
    readIdentifier U (up s) = (up (readIdentifier U s).1, up (readIdentifier U s).2) := by
  cases s with
  | nil => rfl
  | cons c s =>
    simp only [up_cons, readIdentifier, spanP_up (identChar_up hU)]

theorem startsBraces_up (n : Nat) : ∀ s, startsBraces n (up s) = startsBraces n s := by
  induction n with
  | zero => intro s; rfl
  | succ n ih =>
    intro s
    cases s with
    | nil => rfl
    | cons c s => simp only [up_cons, startsBraces, upper_beq c (x := '}') (by decide), ih]

theorem up_take (n : Nat) (s : Str) : (up s).take n = up (s.take n) := (List.map_take ..).symm
theorem up_drop (n : Nat) (s : Str) : (up s).drop n = up (s.drop n) := (List.map_drop ..).symm

theorem templateLoop_up (n : Nat) (s : Str) : templateLoop n (up s) = up2 (templateLoop n s) := by
  induction s with
  | nil => rfl
  | cons c s ih =>
    simp only [up_cons, templateLoop, startsBraces_up, ih, up_take, up_drop]
    split
    · rfl
    · cases templateLoop n s <;> rfl

/-- All parts of the result of reading a token. -/
def Read.up : Read → Read
  | .tok a b r => .tok (Lex.up a) (Lex.up b) (Lex.up r)
  | .fail a m => .fail (Lex.up a) m

theorem exact_up (r : Str × Str) : Read.exact (up r.1, up r.2) = (Read.exact r).up := rfl
theorem ofOption_up (s : Str) (o : Option (Str × Str)) : Read.ofOption (up s) (up2 o) = (Read.ofOption s o).up := by
  rcases o with _ | ⟨a, b⟩ <;> rfl
theorem chars_up (n : Nat) (s : Str) : Read.chars n (up s) = (Read.chars n s).up := by
  simp only [Read.chars, up_take, up_drop, Read.up]

theorem readParameter_up {U : Unicode} (hU : U.Lawful) (s : Str) :
    readParameter U (up s) = (readParameter U s).up := by
  simp only [readParameter, spanP_up (p := fun c => c == '@') fun c => upper_beq c (x := '@') (by decide)]
  cases (spanP (fun c => c == '@') s).2 with
  | nil => rfl
  | cons c cs =>
    simp only [up_cons, upper_eq c (x := '`') (by decide), identStart_up hU]
    split
    · next h =>
      subst h
      have := readBackQuoted_up (c := '`') (by decide) cs
      rw [up_cons] at this
      rw [this]
      rcases readBackQuoted ('`' :: cs) with _ | ⟨a, b⟩
      · rfl
      · simp [up2, Read.up]
    · split
      · have := readIdentifier_up hU (c :: cs)
        rw [up_cons] at this
        rw [this]
        simp [Read.up]
      · rfl

theorem quantifierFollows_up (s : Str) : quantifierFollows (up s) = quantifierFollows s := by
  cases s with
  | nil => rfl
  | cons c s =>
    simp only [up_cons, quantifierFollows, upper_beq c (x := '@') (by decide), upper_beq c (x := ',') (by decide),
      upper_digit]

theorem readBrace_up (s : Str) : readBrace (up s) = (readBrace s).up := by
  simp only [readBrace, spanP_up (p := fun c => c == '{') fun c => upper_beq c (x := '{') (by decide), up_length,
    quantifierFollows_up, templateLoop_up]
  split
  · rfl
  · rcases templateLoop _ _ with _ | ⟨a, b⟩
    · rfl
    · simp [up2, Read.up]

theorem comment_up (s : Str) :
    Read.tok (readComment (up s)).1 (trimEnd (readComment (up s)).1) (readComment (up s)).2 =
      (Read.tok (readComment s).1 (trimEnd (readComment s).1) (readComment s).2).up := by
  simp only [readComment_up, trimEnd_up, Read.up]

theorem readToken_letter {U : Unicode} (hU : U.Lawful) (d : Nat) (c : Char) (s : Str) (h : isAsciiLetter c = true) (h' : c.toNat < 128) :
    readToken U d c s = Read.exact (readIdentifier U (c :: s)) := by
  have hd : isDigitChar c = false := by
    have k : ∀ n : Fin 128, isAsciiLetter (Char.ofNat n) = true → isDigitChar (Char.ofNat n) = false := by decide
    have := k ⟨c.toNat, h'⟩
    simp only [Char.ofNat_toNat] at this
    exact this h
  have hi : identStart U c = true := by simp [identStart, hU.alpha_ascii c h', h]
  unfold readToken
  split <;> first
    | (exact absurd h (by decide))
    | simp [hd, hi]

theorem readToken_up {U : Unicode} (hU : U.Lawful) (d : Nat) (c : Char) (s : Str) :
    readToken U d c.toUpper (up s) = (readToken U d c s).up := by
  rcases upper_cases c with hc | hc
  · rw [hc]
    have hcons : c :: up s = up (c :: s) := by rw [up_cons, hc]
    have H : ∀ x, fixed x → ((up s).head? = some x ↔ s.head? = some x) := fun x hx => up_head s hx
    have H2 : ∀ x, fixed x → ((up s).tail.head? = some x ↔ s.tail.head? = some x) := fun x hx => by
      rw [up_tail]; exact up_head _ hx
    unfold readToken
    simp only [hcons]
    split
    · cases s with
      | nil => exact chars_up 1 _
      | cons e t =>
        simp only [up_cons, List.head?_cons, upper_digit]
        split
        · have := readNumber_up ('.' :: e :: t)
          exact congrArg Read.exact this
        · exact chars_up 1 ('.' :: e :: t)
    · exact comment_up _
    · rw [readBackQuoted_up (by decide)]; exact ofOption_up _ _
    · simp only [H '"' (by decide), H2 '"' (by decide)]
      split
      · rw [readMultilineString_up (by decide)]; exact ofOption_up _ _
      · rw [readString_up (by decide)]; exact ofOption_up _ _
    · simp only [H '\'' (by decide), H2 '\'' (by decide)]
      split
      · rw [readMultilineString_up (by decide)]; exact ofOption_up _ _
      · rw [readString_up (by decide)]; exact ofOption_up _ _
    · simp only [H '-' (by decide)]
      split
      · exact comment_up _
      · exact chars_up 1 _
    · simp only [H '*' (by decide)]
      split
      · rw [readMultilineComment_up]; exact ofOption_up _ _
      · exact chars_up 1 _
    all_goals try
      simp only [H '|' (by decide), H '>' (by decide), H '<' (by decide), H '=' (by decide)]
    all_goals try (repeat' split) <;> first | exact chars_up 1 _ | exact chars_up 2 _ | done
    · exact readParameter_up hU _
    · exact readBrace_up _
    · split
      · rw [readNumber_up]; rfl
      · split
        · rw [readIdentifier_up hU]; rfl
        · exact chars_up 1 _
  · obtain ⟨a, b, e, f⟩ := lower_facts c hc
    rw [readToken_letter hU d _ _ e a, readToken_letter hU d _ _ f b, ← up_cons, readIdentifier_up hU]
    rfl

theorem stepDepthLit_up {U : Unicode} (hU : U.Lawful) (d : Nat) (last : Option Str) (c : Char) (s : Str) :
    stepDepthLit U d (last.map up) c.toUpper (up s) = stepDepthLit U d last c s := by
  unfold stepDepthLit
  simp only [upper_eq c (x := '<') (by decide), upper_eq c (x := '>') (by decide), ne_eq,
    up_head s (x := '<') (by decide), up_head s (x := '=') (by decide), up_head s (x := '>') (by decide)]
  cases last with
  | none => rfl
  | some l => simp only [Option.map_some, litIsArrayOrStruct, up_upper hU]; congr

/-- The tokens with capital letters. -/
def upToken (t : Token) : Token := ⟨t.line, t.column, up t.literal⟩

/-- An outcome with capital letters. -/
def upOut : Out (List Token) → Out (List Token)
  | .ok ts => .ok (ts.map upToken)
  | .err e => .err e
  | .panic p => .panic p
  | .timeout => .timeout

theorem upOut_prepend (t : Token) (o : Out (List Token)) : upOut (prepend [t] o) = prepend [upToken t] (upOut o) := by
  cases o <;> rfl

theorem lexFrom_up {U : Unicode} (hU : U.Lawful) (s : Str) : ∀ p d last,
    lexFrom U p d (last.map up) (up s) = upOut (lexFrom U p d last s) := by
  induction s using text_induction with
  | h s ih =>
    intro p d last
    obtain ⟨w, r, rfl, hw, hr | ⟨c, cs, rfl, hc⟩⟩ := split_ws s
    · subst hr
      have hw' : AllWs (up w) := by
        intro c hc
        obtain ⟨e, he, rfl⟩ := List.mem_map.1 hc
        rw [upper_ws]; exact hw e he
      rw [up_append, lexFrom_ws _ _ _ _ _ _ hw, lexFrom_ws _ _ _ _ _ _ hw', up_nil, lexFrom_nil, lexFrom_nil]
      rfl
    · have hw' : AllWs (up w) := by
        intro c hc
        obtain ⟨e, he, rfl⟩ := List.mem_map.1 hc
        rw [upper_ws]; exact hw e he
      have hc' : isWhitespaceChar c.toUpper = false := by rw [upper_ws]; exact hc
      rw [up_append, lexFrom_ws _ _ _ _ _ _ hw, lexFrom_ws _ _ _ _ _ _ hw', advanceAll_up, up_cons,
        lexFrom_cons _ _ _ _ _ _ hc, lexFrom_cons _ _ _ _ _ _ hc', stepDepthLit_up hU, readToken_up hU]
      split
      · rfl
      · cases hr : readToken U d c cs with
        | fail a m => simp only [Read.up, advanceAll_up]; rfl
        | tok a b r =>
          simp only [Read.up, advanceAll_up]
          have hlen := readToken_length _ _ _ _ _ _ _ hr
          have := ih r (by simp; omega) (advanceAll (advanceAll p w) a)
          rename_i d' _
          have := this d' (some b)
          rw [Option.map_some] at this
          rw [this, upOut_prepend]
          rfl

/-- The tokens of a text with capital letters. -/
theorem tokenize_up {U : Unicode} (hU : U.Lawful) (code : Str) :
    Lex.tokenize U (up code) = upOut (Lex.tokenize U code) := by
  rw [tokenize_lexFrom, tokenize_lexFrom]
  exact lexFrom_up hU code (1, 1) 0 none

end Verif.Lex
