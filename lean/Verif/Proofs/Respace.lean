import Verif.Proofs.LexerRun
/-! Reading a token depends on the text behind it only through the first character, and only if that is not white
space. -/
namespace Verif.Lex
open Verif.Spec

/-- Neither white space nor the start of a comment. -/
def plainChar (c : Char) : Bool := !isWhitespaceChar c && c != '/' && c != '#' && c != '-'

theorem plainChar_ws {c : Char} (h : plainChar c = true) : isWhitespaceChar c = false := by
  simp [plainChar] at h; exact h.1.1.1

/-- The texts start with the same character unless that is white space (or nothing) or could start a comment; a
dash does not appear. -/
structure Sim (r r' : Str) : Prop where
  same : ∀ e, plainChar e = true → (r.head? = some e ↔ r'.head? = some e)
  dash : r'.head? = some '-' → r.head? = some '-'

theorem Sim.of_head {r r' : Str} (h : r.head? = r'.head?) : Sim r r' := ⟨fun e _ => by rw [h], fun e => by rw [h, e]⟩

theorem Sim.append {r r' : Str} (h : Sim r r') (a : Str) : Sim (a ++ r) (a ++ r') := by
  cases a with
  | nil => exact h
  | cons c a => exact .of_head rfl

theorem wsStart_head {x : Str} (hx : WsStart x) {e : Char} (he : isWhitespaceChar e = false) : x.head? ≠ some e := by
  intro hh
  cases x with
  | nil => simp at hh
  | cons c x =>
    simp at hh
    subst hh
    rw [hx c x rfl] at he
    cases he

theorem Sim.ws {r r' : Str} (h : WsStart r) (h' : WsStart r') : Sim r r' :=
  ⟨fun _ he => ⟨fun hh => absurd hh (wsStart_head h (plainChar_ws he)),
    fun hh => absurd hh (wsStart_head h' (plainChar_ws he))⟩, fun hh => absurd hh (wsStart_head h' (by decide))⟩

/-- White space in the place of a comment. -/
theorem Sim.comment {c : Char} {r r' : Str} (h : plainChar c = false) (h' : WsStart r') : Sim (c :: r) r' :=
  ⟨fun e he => ⟨fun hh => (by simp at hh; subst hh; rw [h] at he; cases he),
    fun hh => absurd hh (wsStart_head h' (plainChar_ws he))⟩, fun hh => absurd hh (wsStart_head h' (by decide))⟩

/-- The predicate excludes white space and the characters which start comments. -/
def NoWs (p : Char → Bool) : Prop := ∀ c, plainChar c = false → p c = false

theorem Sim.stop {r r' : Str} (h : Sim r r') {p : Char → Bool} (hp : NoWs p)
    (hr : ∀ c x, r = c :: x → p c = false) : ∀ c x, r' = c :: x → p c = false := by
  intro c x hx
  cases hw : plainChar c with
  | false => exact hp c hw
  | true =>
    have := (h.same c hw).2 (by rw [hx]; rfl)
    cases r with
    | nil => simp at this
    | cons d y =>
      simp at this
      subst this
      exact hr d y rfl

theorem noWs_of {p : Char → Bool} (h : ∀ c, isWhitespaceChar c = true → p c = false) (h1 : p '/' = false)
    (h2 : p '#' = false) (h3 : p '-' = false) : NoWs p := by
  intro c hc
  simp only [plainChar, Bool.and_eq_false_iff, Bool.not_eq_false', bne_eq_false_iff_eq] at hc
  rcases hc with ((hc | rfl) | rfl) | rfl
  · exact h c hc
  · exact h1
  · exact h2
  · exact h3

theorem noWs_digit : NoWs isDigitChar := noWs_of ws_not_digit (by decide) (by decide) (by decide)

theorem digit_plain {c : Char} (h : isDigitChar c = true) : plainChar c = true := by
  cases hp : plainChar c with
  | true => rfl
  | false => rw [noWs_digit c hp] at h; cases h

theorem noWs_ident {U : Unicode} (hU : U.Lawful) : NoWs (identChar U) :=
  noWs_of (fun c hc => ws_not_ident hU c hc) (by simp [identChar, hU.alpha_ascii '/' (by decide)]; decide)
    (by simp [identChar, hU.alpha_ascii '#' (by decide)]; decide)
    (by simp [identChar, hU.alpha_ascii '-' (by decide)]; decide)

theorem noWs_eq {d : Char} (hd : plainChar d = true) : NoWs (fun c => c == d) := by
  intro c hc
  simp only [beq_eq_false_iff_ne]
  rintro rfl
  rw [hc] at hd
  cases hd

theorem spanP_tail {p : Char → Bool} (hp : NoWs p) {s a r r' : Str} (h : spanP p s = (a, r)) (hs : Sim r r') :
    spanP p (a ++ r') = (a, r') := by
  have h1 := spanP_fst_all p s
  have h2 := spanP_snd_head p s
  rw [h] at h1 h2
  exact spanP_of_all p a r' h1 (hs.stop hp h2)

theorem readFraction_tail {s a r r' : Str} (h : readFraction s = (a, r)) (hs : Sim r r') :
    readFraction (a ++ r') = (a, r') := by
  unfold readFraction at h
  split at h
  · next x =>
    simp only [Prod.mk.injEq] at h
    obtain ⟨rfl, rfl⟩ := h
    have := spanP_tail noWs_digit (s := x) rfl hs
    simp only [List.cons_append, readFraction, this]
  · next hx =>
    simp only [Prod.mk.injEq] at h
    obtain ⟨rfl, rfl⟩ := h
    unfold readFraction
    split
    · next y hy =>
      have := (hs.same '.' (by decide)).2 (by rw [show r' = '.' :: y from hy]; rfl)
      cases s with
      | nil => simp at this
      | cons c s => simp at this; subst this; exact absurd rfl (hx s)
    · rfl

theorem readSign_tail {s a r r' : Str} (h : readSign s = (a, r)) (hs : Sim r r') :
    readSign (a ++ r') = (a, r') := by
  have key : ∀ {s : Str}, (∀ c x, s = c :: x → ¬ (c = '+' ∨ c = '-')) → readSign s = ([], s) := by
    intro s hs
    cases s with
    | nil => rfl
    | cons c x => simp only [readSign, if_neg (hs c x rfl)]
  have hr' : (∀ c x, s = c :: x → ¬ (c = '+' ∨ c = '-')) → Sim s r' → readSign r' = ([], r') := by
    intro hn hs
    refine key ?_
    rintro c x rfl hc
    have := show s.head? = some c by
      rcases hc with rfl | rfl
      · exact (hs.same _ (by decide)).2 rfl
      · exact hs.dash rfl
    cases s with
    | nil => simp at this
    | cons d y => simp at this; subst this; exact hn d y rfl hc
  cases s with
  | nil =>
    cases h
    exact hr' (by simp) hs
  | cons c x =>
    by_cases hc : c = '+' ∨ c = '-'
    · simp only [readSign, if_pos hc, Prod.mk.injEq] at h
      obtain ⟨rfl, rfl⟩ := h
      simp only [List.cons_append, List.nil_append, readSign, if_pos hc]
    · simp only [readSign, if_neg hc, Prod.mk.injEq] at h
      obtain ⟨rfl, rfl⟩ := h
      exact hr' (by rintro d y h; cases h; exact hc) hs

theorem readExponent_tail {s a r r' : Str} (h : readExponent s = (a, r)) (hs : Sim r r') :
    readExponent (a ++ r') = (a, r') := by
  have key : ∀ {s : Str}, (∀ c x, s = c :: x → ¬ (c = 'E' ∨ c = 'e')) → readExponent s = ([], s) := by
    intro s hs
    cases s with
    | nil => rfl
    | cons c x => simp only [readExponent, if_neg (hs c x rfl)]
  have hr' : (∀ c x, s = c :: x → ¬ (c = 'E' ∨ c = 'e')) → Sim s r' → readExponent r' = ([], r') := by
    intro hn hs
    refine key ?_
    rintro c x rfl hc
    have := (hs.same c (by rcases hc with rfl | rfl <;> decide)).2 rfl
    cases s with
    | nil => simp at this
    | cons d y => simp at this; subst this; exact hn d y rfl hc
  cases s with
  | nil =>
    cases h
    exact hr' (by simp) hs
  | cons c x =>
    by_cases hc : c = 'E' ∨ c = 'e'
    · simp only [readExponent, if_pos hc, Prod.mk.injEq] at h
      obtain ⟨rfl, rfl⟩ := h
      generalize hsg : readSign x = sg at hs ⊢
      obtain ⟨g, y⟩ := sg
      dsimp only at hs ⊢
      generalize hd : spanP isDigitChar y = sp at hs ⊢
      obtain ⟨ds, z⟩ := sp
      dsimp only at hs ⊢
      have hy : y = ds ++ z := by
        have := spanP_append isDigitChar y
        rw [hd] at this
        exact this.symm
      have h1 := spanP_tail noWs_digit hd hs
      have h2 : readSign (g ++ (ds ++ r')) = (g, ds ++ r') :=
        readSign_tail hsg (by rw [hy]; exact hs.append ds)
      simp only [List.cons_append, List.append_assoc, readExponent, if_pos hc, h2, h1]
    · simp only [readExponent, if_neg hc, Prod.mk.injEq] at h
      obtain ⟨rfl, rfl⟩ := h
      exact hr' (by rintro d y h; cases h; exact hc) hs

theorem readNumber_tail {s a r r' : Str} (h : readNumber s = (a, r)) (hs : Sim r r') :
    readNumber (a ++ r') = (a, r') := by
  unfold readNumber at h
  simp only [Prod.mk.injEq] at h
  obtain ⟨rfl, rfl⟩ := h
  generalize h1 : spanP isDigitChar s = d at hs ⊢
  obtain ⟨d, x⟩ := d
  dsimp only at hs ⊢
  generalize h2 : readFraction x = f at hs ⊢
  obtain ⟨f, y⟩ := f
  dsimp only at hs ⊢
  generalize h3 : readExponent y = e at hs ⊢
  obtain ⟨e, z⟩ := e
  dsimp only at hs ⊢
  have hy : y = e ++ z := by
    have := readExponent_split y
    rw [h3] at this; exact this.symm
  have hx : x = f ++ y := by
    have := readFraction_split x
    rw [h2] at this; exact this.symm
  have k3 := readExponent_tail h3 hs
  have s2 : Sim y (e ++ r') := by rw [hy]; exact hs.append e
  have k2 := readFraction_tail h2 s2
  have s1 : Sim x (f ++ (e ++ r')) := by rw [hx]; exact s2.append f
  have k1 := spanP_tail noWs_digit h1 s1
  simp only [List.append_assoc, readNumber, k1, k2, k3]

theorem throughChar_tail {q : Char} {s a r : Str} (r' : Str) (h : throughChar q s = some (a, r)) :
    throughChar q (a ++ r') = some (a, r') := by
  induction s generalizing a r with
  | nil => simp [throughChar] at h
  | cons c cs ih =>
    unfold throughChar at h
    split at h
    · next hc =>
      simp at h; obtain ⟨rfl, rfl⟩ := h
      simp [throughChar, hc]
    · next hc =>
      split at h
      · next h' =>
        simp at h; obtain ⟨rfl, rfl⟩ := h
        simp [throughChar, hc, ih h']
      · simp at h

theorem readBackQuoted_tail {s a r : Str} (r' : Str) (h : readBackQuoted s = some (a, r)) :
    readBackQuoted (a ++ r') = some (a, r') := by
  cases s with
  | nil => simp [readBackQuoted] at h
  | cons q cs =>
    simp only [readBackQuoted] at h
    split at h
    · next h' =>
      simp at h; obtain ⟨rfl, rfl⟩ := h
      simp [readBackQuoted, throughChar_tail r' h']
    · simp at h

theorem stringLoop_tail {q : Char} {odd : Bool} {s a r : Str} (r' : Str) (h : stringLoop q odd s = some (a, r)) :
    stringLoop q odd (a ++ r') = some (a, r') := by
  induction s generalizing a r odd with
  | nil => simp [stringLoop] at h
  | cons c cs ih =>
    unfold stringLoop at h
    split at h
    · next hc =>
      simp at h; obtain ⟨rfl, rfl⟩ := h
      simp [stringLoop, hc]
    · next hc =>
      split at h
      · next h' =>
        simp at h; obtain ⟨rfl, rfl⟩ := h
        rw [List.cons_append, stringLoop, if_neg hc, ih h']
      · simp at h

theorem readString_tail {s a r : Str} (r' : Str) (h : readString s = some (a, r)) :
    readString (a ++ r') = some (a, r') := by
  cases s with
  | nil => simp [readString] at h
  | cons q cs =>
    simp only [readString] at h
    split at h
    · next h' =>
      simp at h; obtain ⟨rfl, rfl⟩ := h
      simp [readString, stringLoop_tail r' h']
    · simp at h

theorem readMultilineComment_tail {s a r : Str} (r' : Str) (h : readMultilineComment s = some (a, r)) :
    readMultilineComment (a ++ r') = some (a, r') := by
  induction s generalizing a r with
  | nil => simp [readMultilineComment] at h
  | cons c cs ih =>
    unfold readMultilineComment at h
    split at h
    · next hc =>
      simp at h; obtain ⟨rfl, rfl⟩ := h
      simp [readMultilineComment, hc]
    · next hc =>
      split at h
      · next a' b' h' =>
        simp at h; obtain ⟨rfl, rfl⟩ := h
        obtain ⟨h1, body, h2, _⟩ := readMultilineComment_split _ _ _ h'
        have hne : a' ≠ [] := by simp [h2]
        have : (a' ++ r').head? = cs.head? := by
          rw [← h1]
          cases a' with
          | nil => exact absurd rfl hne
          | cons => rfl
        rw [List.cons_append, readMultilineComment, this, if_neg hc, ih h']
      · simp at h

theorem head?_append_ne {a r r' : Str} (h : a ≠ []) : (a ++ r).head? = (a ++ r').head? := by
  cases a with
  | nil => exact absurd rfl h
  | cons => rfl

theorem multilineStringLoop_tail {q : Char} {odd : Bool} {s a r : Str} (r' : Str)
    (h : multilineStringLoop q odd s = some (a, r)) : multilineStringLoop q odd (a ++ r') = some (a, r') := by
  induction s generalizing a r odd with
  | nil => simp [multilineStringLoop] at h
  | cons c cs ih =>
    unfold multilineStringLoop at h
    split at h
    · next hc =>
      simp at h; obtain ⟨rfl, rfl⟩ := h
      simp [multilineStringLoop, hc]
    · next hc =>
      split at h
      · next a' b' h' =>
        simp at h; obtain ⟨rfl, rfl⟩ := h
        obtain ⟨h1, body, h2, _⟩ := multilineStringLoop_split _ _ _ _ _ h'
        have hl : 3 ≤ a'.length := by rw [h2]; simp
        have e1 : (a' ++ r').head? = cs.head? := by
          rw [← h1]
          exact head?_append_ne (by rintro rfl; simp at hl)
        have e2 : (a' ++ r').tail.head? = cs.tail.head? := by
          rw [← h1]
          match a', hl with
          | x :: y :: z, _ => rfl
        rw [List.cons_append, multilineStringLoop, e1, e2, if_neg hc, ih h']
      · simp at h

theorem readMultilineString_tail {s a r : Str} (r' : Str) (h : readMultilineString s = some (a, r)) :
    readMultilineString (a ++ r') = some (a, r') := by
  match s, h with
  | q :: q' :: q'' :: cs, h =>
    simp only [readMultilineString] at h
    split at h
    · next h' =>
      simp at h; obtain ⟨rfl, rfl⟩ := h
      simp [readMultilineString, multilineStringLoop_tail r' h']
    · simp at h

theorem startsBraces_tail {n : Nat} {a r r' : Str} (h : n ≤ a.length) :
    startsBraces n (a ++ r) = startsBraces n (a ++ r') := by
  induction n generalizing a with
  | zero => rfl
  | succ n ih =>
    cases a with
    | nil => simp at h
    | cons c a =>
      simp only [List.cons_append, startsBraces]
      rw [ih (by simpa using h)]

theorem templateLoop_tail {n : Nat} {s a r : Str} (r' : Str) (h : templateLoop n s = some (a, r)) :
    templateLoop n (a ++ r') = some (a, r') := by
  induction s generalizing a r with
  | nil => simp [templateLoop] at h
  | cons c cs ih =>
    unfold templateLoop at h
    split at h
    · next hc =>
      simp at h; obtain ⟨rfl, rfl⟩ := h
      obtain ⟨h1, h2⟩ := startsBraces_split n cs hc
      have hl : (cs.take n).length = n := by rw [h1]; simp
      have hb : startsBraces n (cs.take n ++ r') = true := by
        rw [startsBraces_tail (r' := cs.drop n) (by omega), List.take_append_drop]
        exact hc
      rw [List.cons_append, templateLoop, if_pos hb]
      simp [hl]
    · next hc =>
      split at h
      · next a' b' h' =>
        simp at h; obtain ⟨rfl, rfl⟩ := h
        obtain ⟨h1, body, h2, h3⟩ := templateLoop_split _ _ _ _ h'
        have hb : startsBraces n (a' ++ r') = startsBraces n cs := by
          rw [← h1]
          refine startsBraces_tail ?_
          rw [h2]; simp
        rw [List.cons_append, templateLoop, hb, if_neg hc, ih h']
      · simp at h

theorem readIdentifier_tail {U : Unicode} (hU : U.Lawful) {s a r r' : Str} (h : readIdentifier U s = (a, r))
    (hne : s ≠ []) (hs : Sim r r') : readIdentifier U (a ++ r') = (a, r') := by
  cases s with
  | nil => exact absurd rfl hne
  | cons c cs =>
    simp only [readIdentifier, Prod.mk.injEq] at h
    obtain ⟨rfl, rfl⟩ := h
    have := spanP_tail (noWs_ident hU) (s := cs) rfl hs
    simp only [List.cons_append, readIdentifier, this]

theorem readParameter_tail {U : Unicode} (hU : U.Lawful) {s a b r r' : Str}
    (h : readParameter U s = .tok a b r) (hs : Sim r r') : a = b ∧ readParameter U (a ++ r') = .tok a b r' := by
  unfold readParameter at h
  generalize hA : spanP (fun c => c == '@') s = A at h
  obtain ⟨x, y⟩ := A
  simp only at h
  split at h
  · simp at h
  · next c cs =>
    split at h
    · next hc =>
      subst hc
      split at h
      · next u v huv =>
        simp at h
        obtain ⟨rfl, rfl, rfl⟩ := h
        obtain ⟨h1, body, h2, _⟩ := readBackQuoted_split _ _ _ _ huv
        refine ⟨rfl, ?_⟩
        have k1 : spanP (fun c => c == '@') (x ++ (u ++ r')) = (x, u ++ r') := by
          refine spanP_tail (noWs_eq (by decide)) hA ?_
          rw [h2, List.cons_append]
          exact .of_head rfl
        have k2 := readBackQuoted_tail r' huv
        unfold readParameter
        rw [List.append_assoc, k1]
        rw [h2, List.cons_append] at k2 ⊢
        simp only [k2, if_true]
      · simp at h
    · next hc =>
      split at h
      · next hi =>
        simp only [Read.tok.injEq] at h
        obtain ⟨rfl, rfl, h3⟩ := h
        refine ⟨rfl, ?_⟩
        have hid : readIdentifier U (c :: cs) = ((readIdentifier U (c :: cs)).1, r) := by rw [← h3]
        have k2 := readIdentifier_tail hU hid (by simp) hs
        have hh : (readIdentifier U (c :: cs)).1 = c :: (spanP (identChar U) cs).1 := rfl
        have k1 : spanP (fun c => c == '@') (x ++ ((readIdentifier U (c :: cs)).1 ++ r')) =
            (x, (readIdentifier U (c :: cs)).1 ++ r') := by
          refine spanP_tail (noWs_eq (by decide)) hA ?_
          rw [hh, List.cons_append]
          exact .of_head rfl
        unfold readParameter
        rw [List.append_assoc, k1]
        rw [hh, List.cons_append] at k2 ⊢
        simp only [if_neg hc, if_pos hi, k2]
      · simp at h

theorem quantifierFollows_tail {r r' : Str} (hs : Sim r r') : quantifierFollows r = quantifierFollows r' := by
  have head : ∀ x : Str, quantifierFollows x = true ↔ ∃ c, x.head? = some c ∧ (c == '@' || isDigitChar c || c == ',') = true := by
    intro x
    cases x <;> simp [quantifierFollows]
  have pl : ∀ c, (c == '@' || isDigitChar c || c == ',') = true → plainChar c = true := by
    intro c h
    simp only [Bool.or_eq_true, beq_iff_eq] at h
    rcases h with (rfl | h) | rfl
    · decide
    · exact digit_plain h
    · decide
  rw [Bool.eq_iff_iff, head, head]
  constructor
  · rintro ⟨c, h1, h2⟩
    exact ⟨c, (hs.same c (pl c h2)).1 h1, h2⟩
  · rintro ⟨c, h1, h2⟩
    exact ⟨c, (hs.same c (pl c h2)).2 h1, h2⟩

theorem readBrace_tail {s a b r r' : Str} (h : readBrace s = .tok a b r) (hs : Sim r r') :
    a = b ∧ readBrace (a ++ r') = .tok a b r' := by
  unfold readBrace at h
  generalize hA : spanP (fun c => c == '{') s = A at h
  obtain ⟨x, y⟩ := A
  simp only at h
  split at h
  · next hc =>
    simp only [Read.tok.injEq] at h
    obtain ⟨rfl, rfl, rfl⟩ := h
    have k1 := spanP_tail (noWs_eq (d := '{') (by decide)) hA hs
    refine ⟨?_, ?_⟩
    · have hall := spanP_fst_all (fun c => c == '{') s
      rw [hA] at hall
      match x, hc.1 with
      | [e], _ =>
        have := hall e (List.mem_singleton.2 rfl)
        simp at this
        rw [this]
    unfold readBrace
    rw [k1]
    simp only [← quantifierFollows_tail hs, if_pos hc]
  · next hc =>
    split at h
    · next u v huv =>
      simp only [Read.tok.injEq] at h
      obtain ⟨rfl, rfl, rfl⟩ := h
      obtain ⟨h1, body, h2, h3⟩ := templateLoop_split _ _ _ _ huv
      have hne : u ≠ [] := by rw [h2]; simp [h3]
      have hsim : Sim y (u ++ r') := by
        rw [← h1]
        exact .of_head (head?_append_ne hne)
      have k1 := spanP_tail (noWs_eq (d := '{') (by decide)) hA hsim
      have k2 := templateLoop_tail r' huv
      refine ⟨rfl, ?_⟩
      unfold readBrace
      rw [List.append_assoc, k1]
      simp only [← quantifierFollows_tail hsim, if_neg hc, k2]
    · simp at h

theorem ofOption_tail {s s' a b r r' : Str} {o o' : Option (Str × Str)}
    (ho : ∀ y z, o = some (y, z) → z = r → o' = some (y, r'))
    (h : Read.ofOption s o = .tok a b r) : a = b ∧ Read.ofOption s' o' = .tok a b r' := by
  cases o with
  | none => simp [Read.ofOption] at h
  | some p =>
    obtain ⟨y, z⟩ := p
    simp only [Read.ofOption, Read.tok.injEq] at h
    obtain ⟨rfl, rfl, rfl⟩ := h
    rw [ho _ _ rfl rfl]
    exact ⟨rfl, rfl⟩

theorem chars_one_tail {c : Char} {b r r' : Str} {lit : Str} (h : Read.chars 1 (c :: (b ++ r)) = .tok (c :: b) lit r) :
    c :: b = lit ∧ Read.chars 1 (c :: (b ++ r')) = .tok (c :: b) lit r' := by
  simp only [Read.chars, List.take_succ_cons, List.take_zero, List.drop_succ_cons, List.drop_zero,
    Read.tok.injEq, List.cons.injEq, true_and] at h
  obtain ⟨rfl, rfl, _⟩ := h
  exact ⟨rfl, rfl⟩

theorem chars_two_tail {c d : Char} {b r r' : Str} {lit : Str} (hd : (b ++ r).head? = some d)
    (h : Read.chars 2 (c :: (b ++ r)) = .tok (c :: b) lit r) :
    c :: b = lit ∧ Read.chars 2 (c :: (b ++ r')) = .tok (c :: b) lit r' := by
  cases b with
  | nil =>
    cases r with
    | nil => simp at hd
    | cons e r => simp [Read.chars] at h
  | cons e b =>
    simp only [Read.chars, List.cons_append, List.take_succ_cons, List.take_zero, List.drop_succ_cons,
      List.drop_zero, Read.tok.injEq, List.cons.injEq, true_and] at h
    obtain ⟨rfl, rfl, _⟩ := h
    exact ⟨rfl, rfl⟩

theorem exact_tail {a b r r' : Str} {p p' : Str × Str} (hp : ∀ y, p = (y, r) → p' = (y, r'))
    (h : Read.exact p = .tok a b r) : a = b ∧ Read.exact p' = .tok a b r' := by
  obtain ⟨y, z⟩ := p
  simp only [Read.exact, Read.tok.injEq] at h
  obtain ⟨rfl, rfl, rfl⟩ := h
  rw [hp _ rfl]
  exact ⟨rfl, rfl⟩

/-- Reading a token that is not a line comment. -/
theorem readToken_tail {U : Unicode} (hU : U.Lawful) {d : Nat} {c : Char} {b lit r r' : Str}
    (h : readToken U d c (b ++ r) = .tok (c :: b) lit r) (hc : ¬ IsLineComment lit) (hs : Sim r r') :
    c :: b = lit ∧ readToken U d c (b ++ r') = .tok (c :: b) lit r' := by
  have HD : ∀ e, plainChar e = true → ((b ++ r').head? = some e ↔ (b ++ r).head? = some e) :=
    fun e he => ((hs.append b).same e he).symm
  have TH : ∀ e, plainChar e = true → b ≠ [] →
      ((b ++ r').tail.head? = some e ↔ (b ++ r).tail.head? = some e) := by
    intro e he hb
    cases b with
    | nil => exact absurd rfl hb
    | cons x b => exact ((hs.append b).same e he).symm
  have CL : ∀ s, ((∃ t, s = '#' :: t) ∨ (∃ t, s = '-' :: '-' :: t)) →
      (Read.tok (readComment s).1 (trimEnd (readComment s).1) (readComment s).2) ≠ .tok (c :: b) lit r := by
    intro s h2 h1
    apply hc
    simp at h1
    rcases h2 with ⟨t, rfl⟩ | ⟨t, rfl⟩
    · left
      refine ⟨trimEnd (spanP (fun c => c != '\n') t).1, ?_⟩
      rw [← h1.2.1]
      simp [readComment, spanP, trimEnd_cons, ws_hash]
    · right
      refine ⟨trimEnd (spanP (fun c => c != '\n') t).1, ?_⟩
      rw [← h1.2.1]
      simp [readComment, spanP, trimEnd_cons, ws_dash]
  have QS : ∀ q : Char, plainChar q = true →
      (if (b ++ r).head? = some q ∧ (b ++ r).tail.head? = some q then
        Read.ofOption (q :: (b ++ r)) (readMultilineString (q :: (b ++ r)))
       else Read.ofOption (q :: (b ++ r)) (readString (q :: (b ++ r)))) = .tok (q :: b) lit r →
      q :: b = lit ∧ (if (b ++ r').head? = some q ∧ (b ++ r').tail.head? = some q then
        Read.ofOption (q :: (b ++ r')) (readMultilineString (q :: (b ++ r')))
       else Read.ofOption (q :: (b ++ r')) (readString (q :: (b ++ r')))) = .tok (q :: b) lit r' := by
    intro q hq h
    have hb : b ≠ [] := by
      rintro rfl
      split at h
      · next hcond =>
        obtain ⟨y, hy⟩ : ∃ y, r = q :: q :: y := by
          match r, hcond with
          | x :: y :: z, hcond => simp at hcond; exact ⟨z, by rw [hcond.1, hcond.2]⟩
          | [x], hcond => simp at hcond
          | [], hcond => simp at hcond
        subst hy
        cases ho : readMultilineString (q :: ([] ++ q :: q :: y)) with
        | none => rw [ho] at h; simp [Read.ofOption] at h
        | some p =>
          obtain ⟨u, v⟩ := p
          obtain ⟨_, body, h2, _⟩ := readMultilineString_split _ _ _ _ _ _ ho
          rw [ho, h2] at h
          simp [Read.ofOption] at h
      · cases ho : readString (q :: ([] ++ r)) with
        | none => rw [ho] at h; simp [Read.ofOption] at h
        | some p =>
          obtain ⟨u, v⟩ := p
          obtain ⟨_, body, h2, _⟩ := readString_split _ _ _ _ ho
          rw [ho, h2] at h
          simp [Read.ofOption] at h
    simp only [HD q hq, TH q hq hb]
    split at h
    · next hcond =>
      rw [if_pos hcond]
      refine ofOption_tail (fun y z ho hz => ?_) h
      have hy : y = q :: b := by rw [ho] at h; simp [Read.ofOption] at h; exact h.1
      subst hz hy
      exact readMultilineString_tail r' ho
    · next hcond =>
      rw [if_neg hcond]
      refine ofOption_tail (fun y z ho hz => ?_) h
      have hy : y = q :: b := by rw [ho] at h; simp [Read.ofOption] at h; exact h.1
      subst hz hy
      exact readString_tail r' ho
  have OPT : ∀ (f : Str → Option (Str × Str)), (∀ s a r, f s = some (a, r) → f (a ++ r') = some (a, r')) →
      Read.ofOption (c :: (b ++ r)) (f (c :: (b ++ r))) = .tok (c :: b) lit r →
      c :: b = lit ∧ Read.ofOption (c :: (b ++ r')) (f (c :: (b ++ r'))) = .tok (c :: b) lit r' := by
    intro f hf h
    refine ofOption_tail (fun y z ho hz => ?_) h
    have hy : y = c :: b := by rw [ho] at h; simp [Read.ofOption] at h; exact h.1
    subst hy
    exact hf _ _ _ ho
  have NUM : Read.exact (readNumber (c :: (b ++ r))) = .tok (c :: b) lit r →
      c :: b = lit ∧ Read.exact (readNumber (c :: (b ++ r'))) = .tok (c :: b) lit r' := by
    intro h
    refine exact_tail (fun y hy => ?_) h
    have : y = c :: b := by rw [hy] at h; simp [Read.exact] at h; exact h.1
    subst this
    exact readNumber_tail hy hs
  unfold readToken at h ⊢
  simp only at h ⊢
  split at h
  · -- '.'
    split at h
    · next e he =>
      split at h
      · next hd =>
        have hw : plainChar e = true := digit_plain hd
        simp only [(HD e hw).2 he, if_pos hd]
        exact NUM h
      · next hd =>
        have h2 := chars_one_tail (r' := r') h
        refine ⟨h2.1, ?_⟩
        split
        · next e' he' =>
          split
          · next hd' =>
            have hw : plainChar e' = true := digit_plain hd'
            have := (HD e' hw).1 he'
            rw [he] at this
            cases this
            exact absurd hd' hd
          · exact h2.2
        · exact h2.2
    · next he =>
      have h2 := chars_one_tail (r' := r') h
      refine ⟨h2.1, ?_⟩
      split
      · next e' he' =>
        split
        · next hd' =>
          have hw : plainChar e' = true := digit_plain hd'
          have := (HD e' hw).1 he'
          rw [he] at this
          cases this
        · exact h2.2
      · exact h2.2
  · exact absurd h (CL _ (.inl ⟨_, rfl⟩))
  · exact OPT readBackQuoted (fun _ _ _ => readBackQuoted_tail r') h
  · exact QS '"' (by decide) h
  · exact QS '\'' (by decide) h
  · split at h
    · next hq =>
      exfalso
      refine CL _ (.inr ?_) h
      cases hbr : b ++ r with
      | nil => rw [hbr] at hq; simp at hq
      | cons e t => rw [hbr] at hq; simp at hq; subst hq; exact ⟨t, rfl⟩
    · next hq =>
      rw [if_neg (fun h => hq ((hs.append b).dash h))]
      exact chars_one_tail h
  · simp only [HD '*' (by decide)]
    split at h
    · next hq =>
      rw [if_pos hq]
      exact OPT readMultilineComment (fun _ _ _ => readMultilineComment_tail r') h
    · next hq =>
      rw [if_neg hq]
      exact chars_one_tail h
  · simp only [HD '|' (by decide), HD '>' (by decide)]
    repeat' split at h
    · next hq => rw [if_pos hq]; exact chars_two_tail hq h
    · next hq hq2 => rw [if_neg hq, if_pos hq2]; exact chars_two_tail hq2 h
    · next hq hq2 => rw [if_neg hq, if_neg hq2]; exact chars_one_tail h
  · simp only [HD '<' (by decide), HD '>' (by decide), HD '=' (by decide)]
    repeat' split at h
    · next hq => rw [if_pos hq]; exact chars_two_tail hq h
    · next hq hq2 => rw [if_neg hq, if_pos hq2]; exact chars_two_tail hq2 h
    · next hq hq2 hq3 => rw [if_neg hq, if_neg hq2, if_pos hq3]; exact chars_two_tail hq3 h
    · next hq hq2 hq3 => rw [if_neg hq, if_neg hq2, if_neg hq3]; exact chars_one_tail h
  · simp only [HD '>' (by decide), HD '=' (by decide)]
    repeat' split at h
    · next hq => rw [if_pos hq]; exact chars_one_tail h
    · next hq hq2 => rw [if_neg hq, if_pos hq2]; exact chars_two_tail hq2 h
    · next hq hq2 hq3 => rw [if_neg hq, if_neg hq2, if_pos hq3]; exact chars_two_tail hq3 h
    · next hq hq2 hq3 => rw [if_neg hq, if_neg hq2, if_neg hq3]; exact chars_one_tail h
  · simp only [HD '>' (by decide)]
    split at h
    · next hq => rw [if_pos hq]; exact chars_two_tail hq h
    · next hq => rw [if_neg hq]; exact chars_one_tail h
  · simp only [HD '=' (by decide)]
    split at h
    · next hq => rw [if_pos hq]; exact chars_two_tail hq h
    · next hq => rw [if_neg hq]; exact chars_one_tail h
  · exact readParameter_tail hU h hs
  · exact readBrace_tail h hs
  · split at h
    · next hq => simp only [hq, if_true]; exact NUM h
    · next hq =>
      simp only [hq]
      split at h
      · next hq2 =>
        simp only [hq2, if_true]
        refine exact_tail (fun y hy => ?_) h
        have : y = c :: b := by rw [hy] at h; simp [Read.exact] at h; exact h.1
        subst this
        exact readIdentifier_tail hU hy (by simp) hs
      · next hq2 =>
        simp only [hq2]
        exact chars_one_tail h

theorem comment_no_newline {s a b r : Str}
    (h : Read.tok (readComment s).1 (trimEnd (readComment s).1) (readComment s).2 = .tok a b r) : '\n' ∉ b := by
  simp only [Read.tok.injEq] at h
  obtain ⟨_, rfl, _⟩ := h
  intro hn
  obtain ⟨w, h1, _⟩ := trimEnd_split (readComment s).1
  have h2 := spanP_fst_all (fun c => c != '\n') s '\n'
  have : '\n' ∈ (readComment s).1 := by rw [h1]; exact List.mem_append_left _ hn
  simpa using h2 this

theorem trimEnd_idem (s : Str) : trimEnd (trimEnd s) = trimEnd s := by
  obtain ⟨w, h1, h2⟩ := trimEnd_split s
  have := trimEnd_append_ws (trimEnd s) w h2
  rw [← h1] at this
  exact this.symm

/-- Split white space at the first newline. -/
theorem readComment_respace {lit g x : Str} (hn : '\n' ∉ lit) (ht : trimEnd lit = lit) (hg : AllWs g)
    (hx : '\n' ∈ g ∨ x = []) : ∃ w r, g ++ x = w ++ r ∧ AllWs w ∧
      readComment (lit ++ (g ++ x)) = (lit ++ w, r) ∧ trimEnd (lit ++ w) = lit := by
  obtain ⟨w, r, h1, h2⟩ : ∃ w r, spanP (fun c => c != '\n') g = (w, r) ∧ True := ⟨_, _, rfl, trivial⟩
  have hs := spanP_append (fun c => c != '\n') g
  rw [h1] at hs
  dsimp only at hs
  have hw : AllWs w := fun c hc => hg c (by rw [← hs]; exact List.mem_append_left _ hc)
  have hall := spanP_fst_all (fun c => c != '\n') g
  have hhd := spanP_snd_head (fun c => c != '\n') g
  rw [h1] at hall hhd
  refine ⟨w, r ++ x, by rw [← List.append_assoc, hs], hw, ?_, ?_⟩
  · rw [← hs, List.append_assoc, ← List.append_assoc]
    refine spanP_of_all _ _ _ ?_ ?_
    · intro c hc
      rcases List.mem_append.1 hc with hc | hc
      · simp only [bne_iff_ne, ne_eq]
        rintro rfl
        exact hn hc
      · exact hall c hc
    · intro c y hy
      cases r with
      | nil =>
        rcases hx with hx | rfl
        · rw [← hs, List.append_nil] at hx
          have := hall _ hx
          simp at this
        · cases hy
      | cons d r =>
        cases hy
        exact hhd c r rfl
  · rw [trimEnd_append_ws _ _ hw, ht]

theorem stepDepthLit_tail {U : Unicode} {d : Nat} {last : Option Str} {c : Char} {cs cs' : Str} (h : Sim cs cs') :
    stepDepthLit U d last c cs' = stepDepthLit U d last c cs := by
  unfold stepDepthLit
  simp only [ne_eq, h.same '<' (by decide), h.same '=' (by decide), h.same '>' (by decide)]

theorem wsStart_append {g x : Str} (hg : AllWs g) (h : g ≠ [] ∨ x = []) : WsStart (g ++ x) := by
  intro c r hc
  cases g with
  | nil =>
    rcases h with h | rfl
    · exact absurd rfl h
    · cases hc
  | cons d g =>
    cases hc
    exact hg c (by simp)

theorem respaced_sim {l : Str} {gaps gaps' lits : List Str} (h : Respaced (some l) gaps gaps' lits)
    (hl : ∀ l ∈ lits, ∃ c b, l = c :: b ∧ isWhitespaceChar c = false) :
    Sim (interleave gaps lits) (interleave gaps' lits) := by
  cases h with
  | last h h' =>
    refine Sim.ws ?_ ?_
    · simpa [interleave] using wsStart_append (x := []) h (.inr rfl)
    · simpa [interleave] using wsStart_append (x := []) h' (.inr rfl)
  | @cons _ g g' l' gs gs' ls h h' ok rest =>
    simp only [interleave, List.append_assoc]
    have hk := (ok l rfl).1
    by_cases hg : g = []
    · have hg' := hk.1 hg
      subst hg hg'
      obtain ⟨c, b, rfl, _⟩ := hl l' (by simp)
      exact .of_head (by simp)
    · exact Sim.ws (wsStart_append h (.inl hg)) (wsStart_append h' (.inl fun he => hg (hk.2 he)))

/-- Other gaps give the same literals. -/
theorem lexFrom_respace {U : Unicode} (hU : U.Lawful) {prev : Option Str} {gaps gaps' lits : List Str}
    (h : Respaced prev gaps gaps' lits) (hl : ∀ l ∈ lits, ∃ c b, l = c :: b ∧ isWhitespaceChar c = false) :
    ∀ p p' d last, erase (lexFrom U p d last (interleave gaps lits)) = .ok (lits ++ [[]]) →
      erase (lexFrom U p' d last (interleave gaps' lits)) = .ok (lits ++ [[]]) := by
  induction h with
  | @last prev g g' h h' =>
    intro p p' d last _
    have := lexFrom_ws U p' d last g' [] h'
    rw [List.append_nil] at this
    simp only [interleave, this, lexFrom_nil]
    rfl
  | @cons prev g g' l gs gs' ls h h' ok rest ih =>
    intro p p' d last hlex
    have ih := ih fun l hl' => hl l (List.mem_cons_of_mem _ hl')
    obtain ⟨c, b, rfl, hc⟩ := hl l (by simp)
    simp only [interleave, List.append_assoc] at hlex ⊢
    rw [lexFrom_ws _ _ _ _ _ _ h] at hlex
    rw [lexFrom_ws _ _ _ _ _ _ h']
    rw [List.cons_append, lexFrom_cons _ _ _ _ _ _ hc] at hlex ⊢
    have hsim := respaced_sim rest fun l hl' => hl l (List.mem_cons_of_mem _ hl')
    rw [stepDepthLit_tail (hsim.append b)]
    split at hlex
    · cases hlex
    · next d' hd =>
      simp only [hd]
      split at hlex
      · cases hlex
      · next consumed lit rest' hr =>
        -- the first literal and the others
        have hpre : lit = c :: b ∧ ∀ q, erase (lexFrom U q d' (some lit) rest') = .ok (ls ++ [[]]) := by
          cases ho : lexFrom U (advanceAll (advanceAll p g) consumed) d' (some lit) rest' with
          | ok ts =>
            rw [ho] at hlex
            simp only [prepend, erase, List.map_append, List.map_cons, List.map_nil, Out.ok.injEq,
              List.cons_append, List.nil_append, List.cons.injEq] at hlex
            refine ⟨hlex.1, fun q => ?_⟩
            rw [lexFrom_erase U rest' q (advanceAll (advanceAll p g) consumed), ho]
            simp only [erase, hlex.2]
          | err e => rw [ho] at hlex; cases hlex
          | panic e => rw [ho] at hlex; cases hlex
          | timeout => rw [ho] at hlex; cases hlex
        obtain ⟨rfl, hls⟩ := hpre
        obtain ⟨g1, ⟨w, g2, g3⟩, _⟩ := readToken_good _ _ _ _ _ _ _ hr
        have htail : interleave gs ls = w ++ rest' := by
          rw [g2] at g1
          simp only [List.cons_append, List.append_assoc, List.cons.injEq, true_and] at g1
          exact (List.append_cancel_left g1).symm
        have hold : ∀ q, erase (lexFrom U q d' (some (c :: b)) (interleave gs ls)) = .ok (ls ++ [[]]) := by
          intro q
          rw [htail, lexFrom_ws _ _ _ _ _ _ g3]
          exact hls _
        have hnew := fun q => ih q q d' (some (c :: b)) (hold q)
        -- reading the first token of the new text
        have key : ∃ w' r', interleave gs' ls = w' ++ r' ∧ AllWs w' ∧
            readToken U d c (b ++ interleave gs' ls) = .tok (c :: b ++ w') (c :: b) r' := by
          by_cases hlc : IsLineComment (c :: b)
          · have hshape := readToken_line_comment _ _ _ _ _ _ _ hr hlc
            rw [readToken_comment_shape _ _ _ _ hshape] at hr
            have hn := comment_no_newline hr
            have ht : trimEnd (c :: b) = c :: b := by
              simp only [Read.tok.injEq] at hr
              rw [← hr.2.1, trimEnd_idem]
            have hgap : ∃ g1 x, interleave gs' ls = g1 ++ x ∧ AllWs g1 ∧ ('\n' ∈ g1 ∨ x = []) := by
              cases rest with
              | @last _ g1 g1' k k' => exact ⟨g1', [], by simp [interleave], k', .inr rfl⟩
              | @cons _ g1 g1' l' gs gs' ls k k' ok' _ =>
                exact ⟨g1', _, by simp only [interleave, List.append_assoc]; rfl, k', .inl ((ok' _ rfl).2.2 hlc)⟩
            obtain ⟨g1, x, e1, e2, e3⟩ := hgap
            obtain ⟨w', r', e4, e5, e6, e7⟩ := readComment_respace hn ht e2 e3
            refine ⟨w', r', by rw [e1, e4], e5, ?_⟩
            have hshape' : c :: (b ++ interleave gs' ls) = '#' :: (b ++ interleave gs' ls) ∨
                ∃ t, c :: (b ++ interleave gs' ls) = '-' :: '-' :: t := by
              rcases hlc with ⟨t, ht⟩ | ⟨t, ht⟩
              · cases ht; exact .inl rfl
              · cases ht; exact .inr ⟨_, rfl⟩
            rw [readToken_comment_shape _ _ _ _ hshape', e1]
            rw [List.cons_append] at e6
            rw [e6]
            dsimp only
            rw [e7]
          · have hw : w = [] := by
              have h1 : readToken U d c ((b ++ w) ++ rest') = .tok (c :: (b ++ w)) (c :: b) rest' := by
                rw [List.append_assoc, ← htail, hr, g2, List.cons_append]
              have := (readToken_tail hU h1 hlc (.of_head rfl)).1
              simpa using this
            subst hw
            rw [List.nil_append] at htail
            rw [List.append_nil] at g2
            subst g2
            rw [← htail] at hr
            exact ⟨[], _, rfl, by simp [AllWs], by
              rw [List.append_nil]; exact (readToken_tail hU hr hlc hsim).2⟩
        obtain ⟨w', r', e1, e2, e3⟩ := key
        rw [e3]
        dsimp only
        have : ∀ q, erase (lexFrom U q d' (some (c :: b)) r') = .ok (ls ++ [[]]) := by
          intro q
          have h1 := hnew q
          rw [e1, lexFrom_ws _ _ _ _ _ _ e2] at h1
          rw [lexFrom_erase U r' q (advanceAll q w')]
          exact h1
        have h1 := this (advanceAll (advanceAll p' g') (c :: b ++ w'))
        cases ho : lexFrom U (advanceAll (advanceAll p' g') (c :: b ++ w')) d' (some (c :: b)) r' with
        | ok ts =>
          rw [ho] at h1
          simp only [erase, Out.ok.injEq] at h1
          simp only [prepend, erase, List.cons_append, List.nil_append, List.map_cons, h1]
        | err e => rw [ho] at h1; cases h1
        | panic e => rw [ho] at h1; cases h1
        | timeout => rw [ho] at h1; cases h1

end Verif.Lex
