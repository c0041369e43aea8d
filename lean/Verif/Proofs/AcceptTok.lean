import Verif.Proofs.AcceptBase
import Verif.Proofs.Reloc
import Verif.Proofs.LexerClass
/-! Soundness of the acceptance analysis, part 2: classes of tokens. -/
namespace Verif.GI
open AI Spec

/-- A token with the given literal. -/
def litTok (l : Str) : Token := ⟨0, 0, l⟩

/-- The literal has the shape of a word. -/
def isWordLit : Str → Bool
  | [] => false
  | c :: cs => Token.identStart c && cs.all Token.identRest

/-- Class of a literal. -/
def gcls (l : Str) : Nat :=
  if l = [] then EOFC
  else if clsOf (l.map Char.toUpper) ≠ OTHER then clsOf (l.map Char.toUpper)
  else if (litTok l).quotedBy '`' = true then QID
  else if (litTok l).isString = true then STR
  else if (litTok l).isNumeric = true then NUM
  else if l.head? = some '@' then PAR
  else if isWordLit l = true then IDENT
  else OTHER

theorem clsOf_cases (s : Str) : clsOf s = OTHER ∨ ∃ k : Kw, clsOf s = k.ctorIdx ∧ s = k.lit := by
  unfold clsOf
  split
  · next k hk => exact .inr ⟨k, rfl, by simpa using List.find?_some hk⟩
  · exact .inl rfl

theorem kw_lt (k : Kw) : k.ctorIdx < OTHER := kw_idx_lt k (mem_kw_all k)

theorem gcls_lt (l : Str) : gcls l < 308 := by
  unfold gcls
  have := clsOf_lt (l.map Char.toUpper)
  repeat' split
  all_goals first | decide | omega

theorem kw_head_ok : ∀ k ∈ Kw.all, (match k.lit with
    | [] => false
    | c :: cs => !(c == '`') && !(c == '"') && !(c == '\'') && !(c == '@') && !isDigitChar c &&
      cs.all fun d => !isDigitChar d) = true := by
  decide +kernel

theorem kw_lit (k : Kw) : ∃ c cs, k.lit = c :: cs ∧ c ≠ '`' ∧ c ≠ '"' ∧ c ≠ '\'' ∧ c ≠ '@' ∧
    ∀ d ∈ k.lit, isDigitChar d = false := by
  have h := kw_head_ok k (mem_kw_all k)
  cases hl : k.lit with
  | nil => rw [hl] at h; simp at h
  | cons c cs =>
    rw [hl] at h
    simp only [Bool.and_eq_true, Bool.not_eq_eq_eq_not, Bool.not_true, beq_eq_false_iff_ne,
      List.all_eq_true] at h
    refine ⟨c, cs, rfl, h.1.1.1.1.1, h.1.1.1.1.2, h.1.1.1.2, h.1.1.2, ?_⟩
    intro d hd
    rcases List.mem_cons.1 hd with rfl | hd
    · exact h.1.2
    · exact h.2 d hd

theorem upper_cons_nonletter {U : Unicode} (hU : U.Lawful) {c : Char} (h : c.toNat < 128)
    (hc : c.toUpper = c) (l : Str) : U.upper (c :: l) = c :: U.upper l := by
  unfold Unicode.upper
  rw [List.flatMap_cons, hU.upper_ascii c h, hc]
  rfl

theorem upper_mem {U : Unicode} (hU : U.Lawful) {c : Char} (h : c.toNat < 128) (hc : c.toUpper = c)
    {l : Str} (hl : c ∈ l) : c ∈ U.upper l := by
  unfold Unicode.upper
  rw [List.mem_flatMap]
  exact ⟨c, hl, by rw [hU.upper_ascii c h, hc]; simp⟩

theorem upper_ascii_all {U : Unicode} (hU : U.Lawful) {l : Str} (h : ∀ c ∈ l, c.toNat < 128) :
    U.upper l = l.map Char.toUpper := by
  unfold Unicode.upper
  induction l with
  | nil => rfl
  | cons c l ih =>
    rw [List.flatMap_cons, hU.upper_ascii c (h c (by simp)), ih fun d hd => h d (by simp [hd])]
    rfl

theorem toUpper_ascii {c : Char} (h : c.toUpper.toNat < 128) : c.toNat < 128 := by
  rcases Char.toUpper_cases c with ⟨h1, _, _⟩ | ⟨_, h2⟩
  · exact isAsciiLetter_lt h1
  · rwa [h2] at h

theorem map_upper_ascii {l : Str} {k : Kw} (h : l.map Char.toUpper = k.lit) : ∀ c ∈ l, c.toNat < 128 := by
  intro c hc
  apply toUpper_ascii
  have hm : c.toUpper ∈ k.lit := by rw [← h]; exact List.mem_map_of_mem hc
  have := List.all_eq_true.1 (lit_upper k (mem_kw_all k)) _ hm
  simp only [Bool.and_eq_true, decide_eq_true_eq] at this
  exact this.1

theorem digit_facts {c : Char} (h : isDigitChar c = true) : c.toNat < 128 ∧ c.toUpper = c ∧
    Token.identStart c = false ∧ isAsciiLetter c = false := by
  simp only [isDigitChar, Bool.and_eq_true, decide_eq_true_eq] at h
  have h2 : c.toNat ≤ 57 := h.2
  have h1 : 48 ≤ c.toNat := h.1
  have key : ∀ n, n < 58 → 48 ≤ n → (Char.ofNat n).toUpper = Char.ofNat n ∧
      Token.identStart (Char.ofNat n) = false ∧ isAsciiLetter (Char.ofNat n) = false := by decide
  have := key c.toNat (by omega) h1
  rw [Char.ofNat_toNat] at this
  exact ⟨by omega, this⟩

theorem identRest_ascii {c : Char} (h : Token.identRest c = true) : c.toNat < 128 := by
  simp only [Token.identRest, Token.identStart, Bool.or_eq_true, Bool.and_eq_true, decide_eq_true_eq,
    beq_iff_eq] at h
  rcases h with ((⟨_, h⟩ | ⟨_, h⟩) | rfl) | ⟨_, h⟩
  · have : c.toNat ≤ 122 := h; omega
  · have : c.toNat ≤ 90 := h; omega
  · decide
  · have : c.toNat ≤ 57 := h; omega

theorem identStart_letter {c : Char} (h : isAsciiLetter c = true) : Token.identStart c = true := by
  simp only [isAsciiLetter] at h
  simp [Token.identStart, h]

theorem identStart_upper (c : Char) : Token.identStart c.toUpper = Token.identStart c := by
  rcases Char.toUpper_cases c with ⟨h1, h2, _⟩ | ⟨_, h2⟩
  · rw [identStart_letter h1, identStart_letter h2]
  · rw [h2]

theorem identRest_upper (c : Char) : Token.identRest c.toUpper = Token.identRest c := by
  rcases Char.toUpper_cases c with ⟨h1, h2, _⟩ | ⟨_, h2⟩
  · unfold Token.identRest; rw [identStart_letter h1, identStart_letter h2]; simp
  · rw [h2]

theorem isWordLit_upper (l : Str) : isWordLit (l.map Char.toUpper) = isWordLit l := by
  cases l with
  | nil => rfl
  | cons c cs =>
    simp only [List.map_cons, isWordLit, identStart_upper]
    congr 1
    induction cs with
    | nil => rfl
    | cons d ds ih => simp only [List.map_cons, List.all_cons, identRest_upper, ih]

theorem wordLit_ascii {l : Str} (h : isWordLit l = true) : ∀ c ∈ l, c.toNat < 128 := by
  cases l with
  | nil => simp
  | cons c cs =>
    simp only [isWordLit, Bool.and_eq_true, List.all_eq_true] at h
    intro d hd
    rcases List.mem_cons.1 hd with rfl | hd
    · apply identRest_ascii; unfold Token.identRest; rw [h.1]; rfl
    · exact identRest_ascii (h.2 d hd)

theorem quotedBy_head {l : Str} {q : Char} (h : (litTok l).quotedBy q = true) : ∃ r, l = q :: r := by
  unfold Token.quotedBy litTok at h
  split at h
  · simp at h
  · simp only [Bool.and_eq_true, beq_iff_eq] at h
    cases l with
    | nil => simp at h
    | cons c r => simp at h; exact ⟨r, by rw [h.1]⟩

theorem numeric_digit {l : Str} (h : (litTok l).isNumeric = true) : ∃ d ∈ l, isDigitChar d = true := by
  obtain ⟨m, e, hs, hm, _⟩ := (isNumeric_iff _).1 h
  simp only [litTok] at hs
  rcases hm with ⟨hne, hd⟩ | ⟨ds, fs, rfl, _, hf, hne⟩
  · obtain ⟨d, hd'⟩ := List.exists_mem_of_ne_nil _ hne
    exact ⟨d, by rw [hs]; simp [hd'], hd d hd'⟩
  · obtain ⟨d, hd'⟩ := List.exists_mem_of_ne_nil _ hne
    exact ⟨d, by rw [hs]; simp [hd'], hf d hd'⟩

theorem numeric_head {l : Str} (h : (litTok l).isNumeric = true) :
    ∃ c r, l = c :: r ∧ (isDigitChar c = true ∨ c = '.') := by
  obtain ⟨m, e, hs, hm, _⟩ := (isNumeric_iff _).1 h
  simp only [litTok] at hs
  rcases hm with ⟨hne, hd⟩ | ⟨ds, fs, rfl, hds, hf, hne⟩
  · cases m with
    | nil => simp at hne
    | cons c r => exact ⟨c, r ++ e, hs, .inl (hd c (by simp))⟩
  · cases ds with
    | nil => exact ⟨'.', fs ++ e, by simpa using hs, .inr rfl⟩
    | cons c r => exact ⟨c, _, by simpa using hs, .inl (hds c (by simp))⟩

theorem upper_nil (U : Unicode) : U.upper [] = [] := rfl

/-- The literal of a keyword in upper or lower case. -/
theorem kw_upper {U : Unicode} (hU : U.Lawful) {l : Str} {k : Kw} (h : l.map Char.toUpper = k.lit) :
    U.upper l = k.lit := by
  rw [upper_ascii_all hU (map_upper_ascii h), h]

theorem clsOf_other {s : Str} (h : ∀ k : Kw, s ≠ k.lit) : clsOf s = OTHER := by
  rcases clsOf_cases s with h' | ⟨k, _, h'⟩
  · exact h'
  · exact (h k h').elim

theorem no_kw_head {U : Unicode} (hU : U.Lawful) {c : Char} {r : Str} (h : c.toNat < 128)
    (hc : c.toUpper = c) (hq : c = '`' ∨ c = '"' ∨ c = '\'' ∨ c = '@') (k : Kw) : U.upper (c :: r) ≠ k.lit := by
  rw [upper_cons_nonletter hU h hc]
  obtain ⟨d, ds, h1, h2, h3, h4, h5, _⟩ := kw_lit k
  rw [h1]
  intro h
  have := (List.cons.inj h).1
  subst this
  rcases hq with h | h | h | h
  · exact h2 h
  · exact h3 h
  · exact h4 h
  · exact h5 h

theorem no_kw_digit {U : Unicode} (hU : U.Lawful) {l : Str} {d : Char} (hd : d ∈ l)
    (h : isDigitChar d = true) (k : Kw) : U.upper l ≠ k.lit := by
  intro he
  have h1 := digit_facts h
  have h2 := upper_mem hU h1.1 h1.2.1 hd
  rw [he] at h2
  obtain ⟨_, _, _, _, _, _, _, h3⟩ := kw_lit k
  rw [h3 d h2] at h
  simp at h

/-- The class of a token in upper case, as the parser sees it. -/
theorem gcls_cases {U : Unicode} (hU : U.Lawful) (l : Str) :
    (gcls l = OTHER) ∨ (∃ k : Kw, gcls l = k.ctorIdx ∧ clsOf (U.upper l) = k.ctorIdx ∧ l.map Char.toUpper = k.lit) ∨
    (OTHER + 1 < gcls l ∧ clsOf (U.upper l) = OTHER) := by
  unfold gcls
  split
  · next h => subst h; right; right; exact ⟨by decide, (by decide +kernel : clsOf [] = OTHER)⟩
  · split
    · next h =>
      rcases clsOf_cases (l.map Char.toUpper) with h' | ⟨k, h1, h2⟩
      · exact (h h').elim
      · exact .inr (.inl ⟨k, h1, by rw [kw_upper hU h2]; exact clsOf_lit k (mem_kw_all k), h2⟩)
    · next hk =>
      have hk : clsOf (l.map Char.toUpper) = OTHER := by simpa using hk
      split
      · next h =>
        obtain ⟨r, rfl⟩ := quotedBy_head h
        exact .inr (.inr ⟨by decide, clsOf_other fun k => no_kw_head hU (by decide) (by decide) (.inl rfl) k⟩)
      · split
        · next h =>
          unfold Token.isString at h
          rw [Bool.or_eq_true] at h
          rcases h with h | h
          · obtain ⟨r, rfl⟩ := quotedBy_head h
            exact .inr (.inr ⟨by decide,
              clsOf_other fun k => no_kw_head hU (by decide) (by decide) (.inr (.inl rfl)) k⟩)
          · obtain ⟨r, rfl⟩ := quotedBy_head h
            exact .inr (.inr ⟨by decide,
              clsOf_other fun k => no_kw_head hU (by decide) (by decide) (.inr (.inr (.inl rfl))) k⟩)
        · split
          · next h =>
            obtain ⟨d, hd, h'⟩ := numeric_digit h
            exact .inr (.inr ⟨by decide, clsOf_other fun k => no_kw_digit hU hd h' k⟩)
          · split
            · next h =>
              cases l with
              | nil => simp at h
              | cons c r =>
                simp only [List.head?_cons, Option.some.injEq] at h
                subst h
                exact .inr (.inr ⟨by decide,
                  clsOf_other fun k => no_kw_head hU (by decide) (by decide) (.inr (.inr (.inr rfl))) k⟩)
            · split
              · next h =>
                refine .inr (.inr ⟨by decide, ?_⟩)
                rw [upper_ascii_all hU (wordLit_ascii h), hk]
              · exact .inl rfl

theorem kwMask_other (ks : List Kw) (c : Nat) (h : OTHER ≤ c) : (kwMask ks).testBit c = false := by
  rw [← Bool.not_eq_true, testBit_kwMask]
  rintro ⟨k, _, rfl⟩
  have := kw_lt k
  omega

theorem inKws_true {U : Unicode} (hU : U.Lawful) {t : Token} {ks : List Kw} (h : t.inKws U ks = true) :
    (upT ks).testBit (gcls t.literal) = true := by
  rw [inKws_iff] at h
  unfold cls Token.upper at h
  unfold upT
  rw [Nat.testBit_or, testBit_bit]
  rcases gcls_cases hU t.literal with h' | ⟨k, h1, h2, _⟩ | ⟨_, h2⟩
  · simp [h']
  · rw [h2] at h; simp [h1, h]
  · rw [h2, kwMask_other _ _ (Nat.le_refl _)] at h; simp at h

theorem inKws_false {U : Unicode} (hU : U.Lawful) {t : Token} {ks : List Kw} (h : t.inKws U ks = false) :
    (upF ks).testBit (gcls t.literal) = true := by
  unfold upF
  rw [testBit_cmpl (gcls_lt _)]
  rw [← Bool.not_eq_true, inKws_iff] at h
  unfold cls Token.upper at h
  rcases gcls_cases hU t.literal with h' | ⟨k, h1, h2, _⟩ | ⟨h1, _⟩
  · rw [h', kwMask_other _ _ (Nat.le_refl _)]; rfl
  · rw [h2] at h; rw [h1]; simpa using h
  · rw [kwMask_other _ _ (by omega)]; rfl

theorem raw_true' {t : Token} {ks : List Kw}
    (h : (ks.any fun k => t.literal == k.lit) = true) : (upT ks).testBit (gcls t.literal) = true := by
  simp only [List.any_eq_true, beq_iff_eq] at h
  obtain ⟨k, hk, h⟩ := h
  apply inKws_true Unicode.sample_lawful
  unfold Token.inKws Token.upper
  simp only [List.any_eq_true, beq_iff_eq]
  exact ⟨k, hk, by rw [h, upper_lit Unicode.sample_lawful]⟩

theorem raw_false' {t : Token} {ks : List Kw}
    (h : (ks.any fun k => t.literal == k.lit) = false) :
    (upF (ks.filter isSym)).testBit (gcls t.literal) = true := by
  apply inKws_false Unicode.sample_lawful
  rw [← Bool.not_eq_true] at h ⊢
  intro h'
  apply h
  unfold Token.inKws Token.upper at h'
  simp only [List.any_eq_true, beq_iff_eq, List.mem_filter] at h' ⊢
  obtain ⟨k, ⟨hk, hs⟩, h'⟩ := h'
  exact ⟨k, hk, upper_sym_eq Unicode.sample_lawful h' (sym_chars k (mem_kw_all k) hs)⟩

theorem gcls_eof {l : Str} : gcls l = EOFC ↔ l = [] := by
  constructor
  · intro h
    by_contra hne
    unfold gcls at h
    rw [if_neg hne] at h
    have := clsOf_lt (l.map Char.toUpper)
    repeat' split at h
    all_goals first | (exact absurd h (by decide)) | (unfold EOFC at h; omega)
  · rintro rfl; rfl

theorem map_upper_head {l : Str} {c : Char} {r : Str} (h : l = c :: r) (hq : c = '`' ∨ c = '"' ∨ c = '\'' ∨ c = '@') :
    clsOf (l.map Char.toUpper) = OTHER := by
  subst h
  apply clsOf_other
  intro k hk
  have := kw_upper Unicode.sample_lawful hk
  exact no_kw_head Unicode.sample_lawful (by rcases hq with rfl | rfl | rfl | rfl <;> decide)
    (by rcases hq with rfl | rfl | rfl | rfl <;> decide) hq k this

theorem gcls_quoted {l : Str} (h : (litTok l).quotedBy '`' = true) : gcls l = QID := by
  obtain ⟨r, hr⟩ := quotedBy_head h
  have := map_upper_head hr (.inl rfl)
  unfold gcls
  rw [if_neg (by rw [hr]; simp), if_neg (by simp [this]), if_pos h]

theorem gcls_string {l : Str} (h : (litTok l).isString = true) : gcls l = STR := by
  have h0 := h
  unfold Token.isString at h0
  rw [Bool.or_eq_true] at h0
  obtain ⟨q, r, hr, hq⟩ : ∃ q r, l = q :: r ∧ (q = '"' ∨ q = '\'') := by
    rcases h0 with h0 | h0
    · obtain ⟨r, hr⟩ := quotedBy_head h0; exact ⟨_, r, hr, .inl rfl⟩
    · obtain ⟨r, hr⟩ := quotedBy_head h0; exact ⟨_, r, hr, .inr rfl⟩
  have := map_upper_head hr (by tauto)
  have hn : ¬ (litTok l).quotedBy '`' = true := by
    intro h'
    obtain ⟨r', hr'⟩ := quotedBy_head h'
    rw [hr] at hr'
    have := (List.cons.inj hr').1
    subst this
    rcases hq with hq | hq <;> exact absurd hq (by decide)
  unfold gcls
  rw [if_neg (by rw [hr]; simp), if_neg (by simp [this]), if_neg hn, if_pos h]

theorem gcls_numeric {l : Str} (h : (litTok l).isNumeric = true) : gcls l = NUM := by
  obtain ⟨c, r, hr, hc⟩ := numeric_head h
  obtain ⟨d, hd, hd'⟩ := numeric_digit h
  have hk : clsOf (l.map Char.toUpper) = OTHER := by
    apply clsOf_other
    intro k hk
    exact no_kw_digit Unicode.sample_lawful hd hd' k (kw_upper Unicode.sample_lawful hk)
  have hne : ∀ q, (litTok l).quotedBy q = true → (q = '`' ∨ q = '"' ∨ q = '\'') → False := by
    intro q h' hq
    obtain ⟨r', hr'⟩ := quotedBy_head h'
    rw [hr] at hr'
    have := (List.cons.inj hr').1
    subst this
    rcases hc with hc | hc
    · rcases hq with rfl | rfl | rfl <;> exact absurd hc (by decide)
    · subst hc; rcases hq with h | h | h <;> exact absurd h (by decide)
  unfold gcls
  rw [if_neg (by rw [hr]; simp), if_neg (by simp [hk]), if_neg (fun h' => hne _ h' (.inl rfl)), if_neg ?_, if_pos h]
  unfold Token.isString
  rw [Bool.or_eq_true]
  rintro (h' | h')
  · exact hne _ h' (.inr (.inl rfl))
  · exact hne _ h' (.inr (.inr rfl))

theorem word_head {l : Str} (h : isWordLit l = true) : ∃ c r, l = c :: r ∧ Token.identStart c = true := by
  cases l with
  | nil => simp [isWordLit] at h
  | cons c r =>
    simp only [isWordLit, Bool.and_eq_true] at h
    exact ⟨c, r, rfl, h.1⟩

theorem word_not_quoted {l : Str} (h : isWordLit l = true) {q : Char} (hq : Token.identStart q = false) :
    ¬ (litTok l).quotedBy q = true := by
  intro h'
  obtain ⟨c, r, rfl, hc⟩ := word_head h
  obtain ⟨r', hr'⟩ := quotedBy_head h'
  rw [(List.cons.inj hr').1, hq] at hc
  simp at hc

theorem word_not_numeric {l : Str} (h : isWordLit l = true) : ¬ (litTok l).isNumeric = true := by
  intro h'
  obtain ⟨c, r, rfl, hc⟩ := word_head h
  obtain ⟨c', r', hr', hc'⟩ := numeric_head h'
  have := (List.cons.inj hr').1
  subst this
  rcases hc' with hc' | rfl
  · rw [(digit_facts hc').2.2.1] at hc; simp at hc
  · exact absurd hc (by decide)

/-- The class of a word. -/
theorem gcls_word {l : Str} (h : isWordLit l = true) :
    (gcls l = IDENT ∧ clsOf (l.map Char.toUpper) = OTHER) ∨
      ∃ k : Kw, k ∈ wordKws ∧ gcls l = k.ctorIdx ∧ l.map Char.toUpper = k.lit := by
  obtain ⟨c, r, hr, hc⟩ := word_head h
  unfold gcls
  rw [if_neg (by rw [hr]; simp)]
  rcases clsOf_cases (l.map Char.toUpper) with hk | ⟨k, hk, hk'⟩
  · left
    refine ⟨?_, hk⟩
    rw [if_neg (by simp [hk]), if_neg (word_not_quoted h (by decide)), if_neg ?_, if_neg (word_not_numeric h),
      if_neg ?_, if_pos h]
    · rw [hr]; simp only [List.head?_cons, Option.some.injEq]; rintro rfl; exact absurd hc (by decide)
    · unfold Token.isString
      rw [Bool.or_eq_true]
      rintro (h' | h')
      · exact word_not_quoted h (by decide) h'
      · exact word_not_quoted h (by decide) h'
  · right
    refine ⟨k, ?_, ?_, hk'⟩
    · unfold wordKws
      rw [List.mem_filter]
      refine ⟨mem_kw_all k, ?_⟩
      have hw : isWordLit k.lit = true := by rw [← hk', isWordLit_upper, h]
      cases hl : k.lit with
      | nil => rw [hl] at hw; exact hw
      | cons c cs => rw [hl] at hw; exact hw
    · have := kw_lt k
      rw [if_pos (by rw [hk]; unfold OTHER at *; omega), hk]

theorem wordKws_word {k : Kw} (h : k ∈ wordKws) : isWordLit k.lit = true := by
  unfold wordKws at h
  rw [List.mem_filter] at h
  have h := h.2
  cases hl : k.lit with
  | nil => rw [hl] at h; exact h
  | cons c cs => rw [hl] at h; exact h

/-- A literal in a class of words is a word. -/
theorem word_of_cls {l : Str} (h : wordM.testBit (gcls l) = true) : isWordLit l = true := by
  unfold wordM at h
  rw [Nat.testBit_or, Bool.or_eq_true, testBit_kwMask, testBit_bit, decide_eq_true_eq] at h
  rcases h with ⟨k, hk, h⟩ | h
  · rcases gcls_cases Unicode.sample_lawful l with h' | ⟨k', h1, _, h2⟩ | ⟨h', _⟩
    · have := kw_lt k; omega
    · have := kw_inj (h.trans h1)
      subst this
      rw [← isWordLit_upper, h2, wordKws_word hk]
    · have := kw_lt k; omega
  · unfold gcls at h
    have := clsOf_lt (l.map Char.toUpper)
    repeat' split at h
    all_goals first
      | (exact absurd h (by decide))
      | (unfold IDENT at h; omega)

theorem quoted_of_cls {l : Str} (h : gcls l = QID) : (litTok l).quotedBy '`' = true := by
  unfold gcls at h
  have := clsOf_lt (l.map Char.toUpper)
  repeat' split at h
  all_goals first
    | (exact absurd h (by decide))
    | (unfold QID at h; omega)

theorem string_of_cls {l : Str} (h : gcls l = STR) : (litTok l).isString = true := by
  unfold gcls at h
  have := clsOf_lt (l.map Char.toUpper)
  repeat' split at h
  all_goals first
    | (exact absurd h (by decide))
    | (unfold STR at h; omega)

theorem numeric_of_cls {l : Str} (h : gcls l = NUM) : (litTok l).isNumeric = true := by
  unfold gcls at h
  have := clsOf_lt (l.map Char.toUpper)
  repeat' split at h
  all_goals first
    | (exact absurd h (by decide))
    | (unfold NUM at h; omega)

theorem isStr_true {t : Token} (h : t.isString = true) : (bit STR ||| bit OTHER).testBit (gcls t.literal) = true := by
  rw [gcls_string (l := t.literal) h]; decide

theorem isStr_false {t : Token} (h : t.isString = false) : (cmpl (bit STR)).testBit (gcls t.literal) = true := by
  rw [testBit_cmpl (gcls_lt _), testBit_bit]
  by_cases h' : STR = gcls t.literal
  · have : t.isString = true := string_of_cls h'.symm
    rw [this] at h; simp at h
  · simp [h']

theorem isNum_true {t : Token} (h : t.isNumeric = true) : (bit NUM ||| bit OTHER).testBit (gcls t.literal) = true := by
  rw [gcls_numeric (l := t.literal) h]; decide

theorem isNum_false {t : Token} (h : t.isNumeric = false) : (cmpl (bit NUM)).testBit (gcls t.literal) = true := by
  rw [testBit_cmpl (gcls_lt _), testBit_bit]
  by_cases h' : NUM = gcls t.literal
  · have : t.isNumeric = true := numeric_of_cls h'.symm
    rw [this] at h; simp at h
  · simp [h']

theorem isIdentifier_eq (U : Unicode) (t : Token) : t.isIdentifier U =
    if t.quotedBy '`' then true else if t.isReservedKeyword U then false else isWordLit t.literal := by
  unfold Token.isIdentifier isWordLit
  rfl

theorem mem_identKws {k : Kw} (h : k ∈ wordKws) (h' : k ∉ reservedKeywords) :
    identKws.testBit k.ctorIdx = true := by
  unfold identKws
  rw [testBit_kwMask]
  refine ⟨k, ?_, rfl⟩
  rw [List.mem_filter]
  refine ⟨h, ?_⟩
  rw [Bool.not_eq_true', ← Bool.not_eq_true]
  simp only [List.any_eq_true]
  rintro ⟨r, hr, he⟩
  have := kw_inj (Nat.eq_of_beq_eq_true he)
  subst this
  exact h' hr

theorem isIdent_true {U : Unicode} (hU : U.Lawful) {t : Token} (h : t.isIdentifier U = true) :
    (identT ||| bit OTHER).testBit (gcls t.literal) = true := by
  rw [isIdentifier_eq] at h
  unfold identT
  simp only [Nat.testBit_or, testBit_bit]
  split at h
  · next hq => rw [gcls_quoted (l := t.literal) hq]; simp
  · split at h
    · simp at h
    · next hr =>
      rcases gcls_word h with ⟨h1, _⟩ | ⟨k, hk, h1, h2⟩
      · rw [h1]; simp
      · rw [h1, mem_identKws hk ?_]
        · simp
        · intro hk'
          apply hr
          unfold Token.isReservedKeyword Token.inKws Token.upper
          simp only [List.any_eq_true, beq_iff_eq]
          exact ⟨k, hk', kw_upper hU h2⟩

theorem isIdent_false {U : Unicode} (hU : U.Lawful) {t : Token} (h : t.isIdentifier U = false) :
    (cmpl identT).testBit (gcls t.literal) = true := by
  rw [testBit_cmpl (gcls_lt _)]
  rw [Bool.not_eq_true', ← Bool.not_eq_true]
  intro hc
  rw [← Bool.not_eq_true, isIdentifier_eq] at h
  apply h
  unfold identT at hc
  simp only [Nat.testBit_or, testBit_bit, Bool.or_eq_true, decide_eq_true_eq] at hc
  have key : wordM.testBit (gcls t.literal) = true → t.isReservedKeyword U = false →
      (if t.quotedBy '`' then true else if t.isReservedKeyword U then false else isWordLit t.literal) = true := by
    intro h1 h2
    have h3 := word_of_cls h1
    have h4 : ¬ t.quotedBy '`' = true := word_not_quoted (l := t.literal) h3 (by decide)
    rw [if_neg h4, h2]
    simpa using h3
  rcases hc with (hc | hc) | hc
  · apply key
    · unfold wordM; rw [Nat.testBit_or, testBit_bit]; simp [hc]
    · rw [← Bool.not_eq_true]
      intro hr
      have := inKws_true hU hr
      rw [← hc] at this
      exact absurd this (by decide +kernel)
  · have h4 : t.quotedBy '`' = true := quoted_of_cls (l := t.literal) hc.symm
    rw [if_pos h4]
  · unfold identKws at hc
    rw [testBit_kwMask] at hc
    obtain ⟨k, hk, hc⟩ := hc
    rw [List.mem_filter, Bool.not_eq_true', ← Bool.not_eq_true] at hk
    apply key
    · unfold wordM; rw [Nat.testBit_or, ← hc, (testBit_kwMask _ _).2 ⟨k, hk.1, rfl⟩]; rfl
    · rw [← Bool.not_eq_true]
      intro hr
      apply hk.2
      unfold Token.isReservedKeyword at hr
      rw [inKws_iff, testBit_kwMask] at hr
      obtain ⟨r, hr1, hr2⟩ := hr
      simp only [List.any_eq_true]
      refine ⟨r, hr1, ?_⟩
      rcases gcls_cases hU t.literal with h' | ⟨k', h1, h2, _⟩ | ⟨h', _⟩
      · have := kw_lt k; omega
      · unfold cls Token.upper at hr2
        rw [hr2, h2, ← h1, ← hc]
        exact Nat.beq_refl _
      · have := kw_lt k; omega

end Verif.GI
