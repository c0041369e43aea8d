import Verif.Proofs.Lexer
/-! The tokenizer loop as a function producing the remaining tokens, and its compositionality. -/
namespace Verif.Lex
open Verif.Spec

/-- Does the literal upper-case to `ARRAY` or `STRUCT`? -/
def litIsArrayOrStruct (U : Unicode) (l : Str) : Bool :=
  U.upper l == Kw.lit .ARRAY || U.upper l == Kw.lit .STRUCT

/-- `stepDepth` in terms of the last literal. -/
def stepDepthLit (U : Unicode) (depth : Nat) (last : Option Str) (c : Char) (cs : Str) : Option Nat :=
  if c = '<' ∧ cs.head? ≠ some '<' ∧ cs.head? ≠ some '=' ∧ cs.head? ≠ some '>' then
    match last with
    | none => none
    | some l => some (if litIsArrayOrStruct U l then depth + 1 else depth)
  else if c = '>' ∧ 0 < depth then some (depth - 1)
  else some depth

theorem stepDepth_lit (U : Unicode) (depth : Nat) (last : Option Token) (c : Char) (cs : Str) :
    stepDepth U depth last c cs = stepDepthLit U depth (last.map (·.literal)) c cs := by
  cases last <;> rfl

/-- Prepend tokens to a successful result. -/
def prepend (ts : List Token) : Out (List Token) → Out (List Token)
  | .ok r => .ok (ts ++ r)
  | .err e => .err e
  | .panic p => .panic p
  | .timeout => .timeout

theorem prepend_nil (o : Out (List Token)) : prepend [] o = o := by cases o <;> rfl

theorem prepend_append (a b : List Token) (o : Out (List Token)) :
    prepend (a ++ b) o = prepend a (prepend b o) := by cases o <;> simp [prepend]

theorem prepend_ok {ts r : List Token} {o : Out (List Token)} (h : prepend ts o = .ok r) :
    ∃ r', o = .ok r' ∧ r = ts ++ r' := by
  cases o <;> simp [prepend] at h
  exact ⟨_, rfl, h.symm⟩

/-- The tokenizer loop from position `p`, depth `d`, previous literal `last` on the text `s`. -/
def scan (U : Unicode) : Nat → Nat × Nat → Nat → Option Str → Str → Out (List Token)
  | 0, _, _, _, _ => .timeout
  | n + 1, p, d, last, s =>
    match (spanP isWhitespaceChar s).2 with
    | [] => .ok [Token.eof]
    | c :: cs =>
      match stepDepthLit U d last c cs with
      | none => .panic .noLastToken
      | some d' =>
        match readToken U d c cs with
        | .fail consumed m =>
          .err ⟨(advanceAll (advanceAll p (spanP isWhitespaceChar s).1) consumed).1,
            (advanceAll (advanceAll p (spanP isWhitespaceChar s).1) consumed).2, m⟩
        | .tok consumed literal rest =>
          prepend [⟨(advanceAll p (spanP isWhitespaceChar s).1).1,
              (advanceAll p (spanP isWhitespaceChar s).1).2, literal⟩]
            (scan U n (advanceAll (advanceAll p (spanP isWhitespaceChar s).1) consumed) d'
              (some literal) rest)

theorem tokenizeLoop_scan (U : Unicode) (n : Nat) (st : State) :
    tokenizeLoop U n st =
      prepend st.tokens (scan U n (st.line, st.column) st.depth
        (st.tokens.getLast?.map (·.literal)) st.rest) := by
  induction n generalizing st with
  | zero => rfl
  | succ n ih =>
    unfold tokenizeLoop scan nextToken
    simp only [stepDepth_lit]
    split
    · rename_i heq
      split at heq
      · rename_i h1
        simp [h1, prepend]
      · split at heq
        · simp at heq
        · split at heq <;> simp at heq
    · rename_i st' heq
      split at heq
      · simp at heq
      · rename_i c cs h1
        rw [h1]
        split at heq
        · simp at heq
        · rename_i d' h2
          simp only [h2]
          split at heq
          · simp at heq
          · rename_i consumed literal rest h3
            simp only [h3]
            simp only [Out.ok.injEq, Option.some.injEq] at heq
            subst heq
            rw [ih]
            simp [← prepend_append]
    · rename_i e heq
      split at heq
      · simp at heq
      · rename_i c cs h1
        rw [h1]
        split at heq
        · simp at heq
        · rename_i d' h2
          simp only [h2]
          split at heq
          · rename_i h3
            simp only [h3]
            simp only [Out.err.injEq] at heq
            subst heq
            rfl
          · simp at heq
    · rename_i e heq
      split at heq
      · simp at heq
      · rename_i c cs h1
        rw [h1]
        split at heq
        · rename_i h2
          simp only [h2]
          simp only [Out.panic.injEq] at heq
          subst heq
          rfl
        · split at heq <;> simp at heq
    · rename_i heq
      split at heq
      · simp at heq
      · split at heq
        · simp at heq
        · split at heq <;> simp at heq

theorem tokenize_scan (U : Unicode) (code : Str) :
    tokenize U code = scan U (code.length + 1) (1, 1) 0 none code := by
  rw [tokenize, tokenizeLoop_scan]
  simp [State.init, prepend_nil]

theorem readToken_length (U : Unicode) (d : Nat) (c : Char) (cs consumed lit rest : Str)
    (h : readToken U d c cs = .tok consumed lit rest) : rest.length ≤ cs.length := by
  obtain ⟨h1, ⟨w, h2, _⟩, l, h3⟩ := readToken_good _ _ _ _ _ _ _ h
  have := congrArg List.length h1
  simp [h2, h3] at this
  omega

theorem spanP_snd_length (p : Char → Bool) (s : Str) : (spanP p s).2.length ≤ s.length := by
  have := congrArg List.length (spanP_append p s)
  simp at this
  omega

/-- With more fuel than characters the loop does not run out of fuel and the fuel is irrelevant. -/
theorem scan_fuel (U : Unicode) (n m : Nat) (p : Nat × Nat) (d : Nat) (last : Option Str) (s : Str)
    (hn : s.length < n) (hm : s.length < m) : scan U n p d last s = scan U m p d last s := by
  induction n generalizing m p d last s with
  | zero => omega
  | succ n ih =>
    cases m with
    | zero => omega
    | succ m =>
      unfold scan
      have hl := spanP_snd_length isWhitespaceChar s
      split
      · rfl
      · rename_i c cs h1
        rw [h1] at hl
        simp at hl
        split
        · rfl
        · split
          · rfl
          · rename_i h3
            have := readToken_length _ _ _ _ _ _ _ h3
            rw [ih m _ _ _ _ (by omega) (by omega)]

theorem scan_no_timeout (U : Unicode) (n : Nat) (p : Nat × Nat) (d : Nat) (last : Option Str) (s : Str)
    (hn : s.length < n) : scan U n p d last s ≠ .timeout := by
  induction n generalizing p d last s with
  | zero => omega
  | succ n ih =>
    unfold scan
    have hl := spanP_snd_length isWhitespaceChar s
    split
    · simp
    · rename_i c cs h1
      rw [h1] at hl
      simp at hl
      split
      · simp
      · split
        · simp
        · rename_i d' _ _ consumed literal rest h3
          have := readToken_length _ _ _ _ _ _ _ h3
          have := ih (advanceAll (advanceAll p (spanP isWhitespaceChar s).1) consumed) d'
            (some literal) rest (by omega)
          intro h
          cases hh : scan U n (advanceAll (advanceAll p (spanP isWhitespaceChar s).1) consumed) d'
            (some literal) rest with
          | timeout => exact this hh
          | _ => rw [hh] at h; simp [prepend] at h

/-- The loop with enough fuel. -/
def lexFrom (U : Unicode) (p : Nat × Nat) (d : Nat) (last : Option Str) (s : Str) : Out (List Token) :=
  scan U (s.length + 1) p d last s

theorem tokenize_lexFrom (U : Unicode) (code : Str) :
    tokenize U code = lexFrom U (1, 1) 0 none code := tokenize_scan U code

/-- Unfolding of `lexFrom` at white space. -/
theorem lexFrom_ws (U : Unicode) (p : Nat × Nat) (d : Nat) (last : Option Str) (w s : Str)
    (hw : AllWs w) : lexFrom U p d last (w ++ s) = lexFrom U (advanceAll p w) d last s := by
  have key : spanP isWhitespaceChar (w ++ s) =
      (w ++ (spanP isWhitespaceChar s).1, (spanP isWhitespaceChar s).2) := by
    induction w with
    | nil => rfl
    | cons c w ih =>
      have h1 := hw c (by simp)
      simp [spanP, h1, ih (fun d hd => hw d (by simp [hd]))]
  unfold lexFrom
  rw [scan_fuel U (s.length + 1) ((w ++ s).length + 1) _ _ _ _ (by omega) (by simp; omega)]
  unfold scan
  simp only [key, advanceAll_append]

theorem lexFrom_nil (U : Unicode) (p : Nat × Nat) (d : Nat) (last : Option Str) :
    lexFrom U p d last [] = .ok [Token.eof] := rfl

theorem lexFrom_cons (U : Unicode) (p : Nat × Nat) (d : Nat) (last : Option Str) (c : Char) (cs : Str)
    (hc : isWhitespaceChar c = false) :
    lexFrom U p d last (c :: cs) =
      match stepDepthLit U d last c cs with
      | none => .panic .noLastToken
      | some d' =>
        match readToken U d c cs with
        | .fail consumed m => .err ⟨(advanceAll p consumed).1, (advanceAll p consumed).2, m⟩
        | .tok consumed literal rest =>
          prepend [⟨p.1, p.2, literal⟩] (lexFrom U (advanceAll p consumed) d' (some literal) rest) := by
  have key : spanP isWhitespaceChar (c :: cs) = ([], c :: cs) := by simp [spanP, hc]
  conv => lhs; unfold lexFrom scan
  simp only [key, advanceAll, List.foldl_nil]
  split
  · rfl
  · split
    · rfl
    · rename_i h3
      have := readToken_length _ _ _ _ _ _ _ h3
      unfold lexFrom
      rw [scan_fuel U _ _ _ _ _ _ (by simp; omega) (Nat.lt_succ_self _)]

/-- Every text is white space followed by nothing or by a non-white-space character. -/
theorem split_ws (s : Str) : ∃ w r, s = w ++ r ∧ AllWs w ∧ (r = [] ∨ ∃ c cs, r = c :: cs ∧ isWhitespaceChar c = false) := by
  refine ⟨(spanP isWhitespaceChar s).1, (spanP isWhitespaceChar s).2, (spanP_append _ _).symm,
    spanP_fst_all _ _, ?_⟩
  cases h : (spanP isWhitespaceChar s).2 with
  | nil => exact .inl rfl
  | cons c cs => exact .inr ⟨c, cs, rfl, spanP_snd_head _ _ _ _ h⟩

/-- Induction principle on texts: skip white space, read a token, continue with the rest. -/
theorem text_induction {motive : Str → Prop}
    (h : ∀ s, (∀ r, r.length < s.length → motive r) → motive s) (s : Str) : motive s := by
  have : ∀ n s, s.length < n → motive s := by
    intro n
    induction n with
    | zero => intro s hs; omega
    | succ n ih => intro s hs; exact h s fun r hr => ih r (by omega)
  exact this (s.length + 1) s (by omega)

/-! ### Derivations of successful runs -/

/-- A successful run of the tokenizer loop. -/
inductive Run (U : Unicode) : Nat × Nat → Nat → Option Str → Str → List Token → Prop
  | done {p d last w} : AllWs w → Run U p d last w [Token.eof]
  | tok {p d d' last w c cs consumed lit rest ts} : AllWs w → isWhitespaceChar c = false →
      stepDepthLit U d last c cs = some d' → readToken U d c cs = .tok consumed lit rest →
      Run U (advanceAll (advanceAll p w) consumed) d' (some lit) rest ts →
      Run U p d last (w ++ c :: cs) (⟨(advanceAll p w).1, (advanceAll p w).2, lit⟩ :: ts)

theorem lexFrom_run (U : Unicode) (s : Str) : ∀ p d last ts,
    lexFrom U p d last s = .ok ts → Run U p d last s ts := by
  induction s using text_induction with
  | h s ih =>
    intro p d last ts h
    obtain ⟨w, r, rfl, hw, hr | ⟨c, cs, rfl, hc⟩⟩ := split_ws s
    · subst hr
      rw [lexFrom_ws _ _ _ _ _ _ hw, lexFrom_nil] at h
      simp at h
      subst h
      simpa using Run.done hw
    · rw [lexFrom_ws _ _ _ _ _ _ hw, lexFrom_cons _ _ _ _ _ _ hc] at h
      split at h
      · simp at h
      · rename_i d' h2
        split at h
        · simp at h
        · rename_i consumed lit rest h3
          obtain ⟨ts', h4, rfl⟩ := prepend_ok h
          have := readToken_length _ _ _ _ _ _ _ h3
          exact Run.tok hw hc h2 h3 (ih rest (by simp; omega) _ _ _ _ h4)

theorem run_lexFrom {U : Unicode} {s : Str} {p : Nat × Nat} {d : Nat} {last : Option Str} {ts : List Token}
    (h : Run U p d last s ts) : lexFrom U p d last s = .ok ts := by
  induction h with
  | @done p d last w hw =>
    have := lexFrom_ws U p d last w [] hw
    rw [List.append_nil] at this
    rw [this, lexFrom_nil]
  | tok hw hc h2 h3 _ ih =>
    rw [lexFrom_ws _ _ _ _ _ _ hw, lexFrom_cons _ _ _ _ _ _ hc, h2, h3]
    simp only [ih]
    rfl

/-! ### Readers do not look past a white-space character -/

/-- `x` is empty or starts with white space. -/
def WsStart (x : Str) : Prop := ∀ c r, x = c :: r → isWhitespaceChar c = true

theorem ws_not_digit (c : Char) (h : isWhitespaceChar c = true) : isDigitChar c = false := by
  cases hd : isDigitChar c with
  | false => rfl
  | true =>
    exfalso
    simp only [isDigitChar, Bool.and_eq_true, decide_eq_true_eq, Char.le_def] at hd
    have h1 : (48 : Nat) ≤ c.toNat := hd.1
    have h2 : c.toNat ≤ 57 := hd.2
    simp [isWhitespaceChar] at h
    omega

theorem ws_ne (c d : Char) (h : isWhitespaceChar c = true) (hd : isWhitespaceChar d = false) : c ≠ d := by
  rintro rfl; simp [h] at hd

theorem ws_not_ident {U : Unicode} (hU : U.Lawful) (c : Char) (h : isWhitespaceChar c = true) :
    identChar U c = false := by
  have h1 : U.isAlphabetic c = false := by
    cases ha : U.isAlphabetic c with
    | false => rfl
    | true => rw [hU.alpha_not_ws c ha] at h; simp at h
  have h2 : (c == '_') = false := by simpa using ws_ne c '_' h (by decide)
  simp [identChar, h1, h2, ws_not_digit c h]

theorem head?_append_ws {cs x : Str} (hx : WsStart x) (d : Char) (hd : isWhitespaceChar d = false) :
    ((cs ++ x).head? = some d) ↔ (cs.head? = some d) := by
  cases cs with
  | nil =>
    cases x with
    | nil => simp
    | cons c r => simpa using ws_ne c d (hx c r rfl) hd
  | cons c cs => simp

theorem tail_head?_append_ws {cs x : Str} (hx : WsStart x) (d : Char) (hd : isWhitespaceChar d = false)
    (hne : cs ≠ []) :
    ((cs ++ x).tail.head? = some d) ↔ (cs.tail.head? = some d) := by
  cases cs with
  | nil => exact absurd rfl hne
  | cons c cs => simpa using head?_append_ws hx d hd

theorem throughChar_append (q : Char) (s a b x : Str) (h : throughChar q s = some (a, b)) :
    throughChar q (s ++ x) = some (a, b ++ x) := by
  induction s generalizing a b with
  | nil => simp [throughChar] at h
  | cons c cs ih =>
    unfold throughChar at h
    simp only [List.cons_append]
    unfold throughChar
    split at h
    · rename_i hc
      simp at h; obtain ⟨rfl, rfl⟩ := h
      simp [hc]
    · rename_i hc
      split at h
      · rename_i h'
        simp at h; obtain ⟨rfl, rfl⟩ := h
        rw [ih _ _ h', if_neg hc]
      · simp at h

theorem readBackQuoted_append (s a b x : Str) (h : readBackQuoted s = some (a, b)) :
    readBackQuoted (s ++ x) = some (a, b ++ x) := by
  cases s with
  | nil => simp [readBackQuoted] at h
  | cons q cs =>
    simp only [readBackQuoted, List.cons_append] at h ⊢
    split at h
    · rename_i h'
      simp at h; obtain ⟨rfl, rfl⟩ := h
      rw [throughChar_append _ _ _ _ _ h']
    · simp at h

theorem readMultilineComment_append (s a b x : Str) (hx : WsStart x)
    (h : readMultilineComment s = some (a, b)) :
    readMultilineComment (s ++ x) = some (a, b ++ x) := by
  induction s generalizing a b with
  | nil => simp [readMultilineComment] at h
  | cons c cs ih =>
    unfold readMultilineComment at h
    simp only [List.cons_append]
    unfold readMultilineComment
    simp only [head?_append_ws hx '/' (by decide)]
    split at h
    · rename_i hc
      rw [if_pos hc]
      cases cs with
      | nil => simp at hc
      | cons e es =>
        simp at h; obtain ⟨rfl, rfl⟩ := h
        rfl
    · rename_i hc
      rw [if_neg hc]
      split at h
      · rename_i h'
        simp at h; obtain ⟨rfl, rfl⟩ := h
        rw [ih _ _ h']
      · simp at h

theorem stringLoop_append (q : Char) (odd : Bool) (s a b x : Str) (h : stringLoop q odd s = some (a, b)) :
    stringLoop q odd (s ++ x) = some (a, b ++ x) := by
  induction s generalizing a b odd with
  | nil => simp [stringLoop] at h
  | cons c cs ih =>
    unfold stringLoop at h
    simp only [List.cons_append]
    unfold stringLoop
    split at h
    · rename_i hc
      rw [if_pos hc]
      simp at h; obtain ⟨rfl, rfl⟩ := h
      rfl
    · rename_i hc
      rw [if_neg hc]
      split at h
      · rename_i h'
        simp at h; obtain ⟨rfl, rfl⟩ := h
        rw [ih _ _ _ h']
      · simp at h

theorem readString_append (s a b x : Str) (h : readString s = some (a, b)) :
    readString (s ++ x) = some (a, b ++ x) := by
  cases s with
  | nil => simp [readString] at h
  | cons q cs =>
    simp only [readString, List.cons_append] at h ⊢
    split at h
    · rename_i h'
      simp at h; obtain ⟨rfl, rfl⟩ := h
      rw [stringLoop_append _ _ _ _ _ _ h']
    · simp at h

theorem multilineStringLoop_append (q : Char) (hq : isWhitespaceChar q = false) (odd : Bool) (s a b x : Str)
    (hx : WsStart x) (h : multilineStringLoop q odd s = some (a, b)) :
    multilineStringLoop q odd (s ++ x) = some (a, b ++ x) := by
  induction s generalizing a b odd with
  | nil => simp [multilineStringLoop] at h
  | cons c cs ih =>
    unfold multilineStringLoop at h
    simp only [List.cons_append]
    unfold multilineStringLoop
    simp only [head?_append_ws hx q hq]
    by_cases hne : cs = []
    · subst hne
      simp [multilineStringLoop] at h
    · simp only [tail_head?_append_ws hx q hq hne]
      split at h
      · rename_i hc
        rw [if_pos hc]
        match cs, hc with
        | e :: f :: es, hc =>
          simp at h; obtain ⟨rfl, rfl⟩ := h
          rfl
        | [], hc => simp at hc
        | [e], hc => simp at hc
      · rename_i hc
        rw [if_neg hc]
        split at h
        · rename_i h'
          simp at h; obtain ⟨rfl, rfl⟩ := h
          rw [ih _ _ _ h']
        · simp at h

theorem readMultilineString_append (q : Char) (hq : isWhitespaceChar q = false) (cs a b x : Str) (hx : WsStart x)
    (h : readMultilineString (q :: cs) = some (a, b)) :
    readMultilineString (q :: cs ++ x) = some (a, b ++ x) := by
  match cs, h with
  | e :: f :: r, h =>
    simp only [readMultilineString, List.cons_append] at h ⊢
    split at h
    · rename_i h'
      simp at h; obtain ⟨rfl, rfl⟩ := h
      rw [multilineStringLoop_append _ hq _ _ _ _ _ hx h']
    · simp at h

theorem startsBraces_append (n : Nat) (s x : Str) (hx : WsStart x) :
    startsBraces n (s ++ x) = startsBraces n s := by
  induction n generalizing s with
  | zero => simp [startsBraces]
  | succ n ih =>
    cases s with
    | nil =>
      cases x with
      | nil => rfl
      | cons c r =>
        have : (c == '}') = false := by simpa using ws_ne c '}' (hx c r rfl) (by decide)
        simp [startsBraces, this]
    | cons c cs => simp [startsBraces, ih]

theorem templateLoop_append (n : Nat) (s a b x : Str) (hx : WsStart x)
    (h : templateLoop n s = some (a, b)) : templateLoop n (s ++ x) = some (a, b ++ x) := by
  induction s generalizing a b with
  | nil => simp [templateLoop] at h
  | cons c cs ih =>
    unfold templateLoop at h
    simp only [List.cons_append]
    unfold templateLoop
    rw [startsBraces_append _ _ _ hx]
    split at h
    · rename_i hc
      rw [if_pos hc]
      simp at h; obtain ⟨rfl, rfl⟩ := h
      have := (startsBraces_split n cs hc).2
      simp [List.take_append_of_le_length this, List.drop_append_of_le_length this]
    · rename_i hc
      rw [if_neg hc]
      split at h
      · rename_i h'
        simp at h; obtain ⟨rfl, rfl⟩ := h
        rw [ih _ _ h']
      · simp at h

theorem spanP_append_ws (p : Char → Bool) (hp : ∀ c, isWhitespaceChar c = true → p c = false) (s x : Str)
    (hx : WsStart x) : spanP p (s ++ x) = ((spanP p s).1, (spanP p s).2 ++ x) :=
  spanP_append_of_stop p s x fun c r h => hp c (hx c r h)

theorem readFraction_append (s x : Str) (hx : WsStart x) :
    readFraction (s ++ x) = ((readFraction s).1, (readFraction s).2 ++ x) := by
  match s with
  | [] =>
    cases x with
    | nil => rfl
    | cons c r =>
      have : c ≠ '.' := ws_ne c '.' (hx c r rfl) (by decide)
      unfold readFraction
      split
      · rename_i h; simp at h; exact absurd h.1 this
      · simp
  | c :: cs =>
    by_cases hc : c = '.'
    · subst hc
      simp [readFraction, spanP_append_ws _ ws_not_digit _ _ hx]
    · unfold readFraction
      split
      · rename_i h; simp at h; exact absurd h.1 hc
      · split
        · rename_i h; simp at h; exact absurd h.1 hc
        · rfl

theorem readSign_append (s x : Str) (hx : WsStart x) :
    readSign (s ++ x) = ((readSign s).1, (readSign s).2 ++ x) := by
  match s with
  | [] =>
    cases x with
    | nil => rfl
    | cons c r =>
      have h1 : c ≠ '+' := ws_ne c '+' (hx c r rfl) (by decide)
      have h2 : c ≠ '-' := ws_ne c '-' (hx c r rfl) (by decide)
      simp [readSign, h1, h2]
  | c :: cs =>
    simp only [readSign, List.cons_append]
    split <;> simp

theorem readExponent_append (s x : Str) (hx : WsStart x) :
    readExponent (s ++ x) = ((readExponent s).1, (readExponent s).2 ++ x) := by
  match s with
  | [] =>
    cases x with
    | nil => rfl
    | cons c r =>
      have h1 : c ≠ 'E' := ws_ne c 'E' (hx c r rfl) (by decide)
      have h2 : c ≠ 'e' := ws_ne c 'e' (hx c r rfl) (by decide)
      simp [readExponent, h1, h2]
  | c :: cs =>
    simp only [readExponent, List.cons_append]
    split
    · rw [readSign_append _ _ hx]
      simp only [spanP_append_ws _ ws_not_digit _ _ hx]
    · simp

theorem readNumber_append (s x : Str) (hx : WsStart x) :
    readNumber (s ++ x) = ((readNumber s).1, (readNumber s).2 ++ x) := by
  simp only [readNumber, spanP_append_ws _ ws_not_digit _ _ hx, readFraction_append _ _ hx,
    readExponent_append _ _ hx]

theorem readIdentifier_append {U : Unicode} (hU : U.Lawful) (c : Char) (s x : Str) (hx : WsStart x) :
    readIdentifier U (c :: s ++ x) = ((readIdentifier U (c :: s)).1, (readIdentifier U (c :: s)).2 ++ x) := by
  simp only [readIdentifier, List.cons_append, spanP_append_ws _ (ws_not_ident hU) _ _ hx]

theorem readParameter_append {U : Unicode} (hU : U.Lawful) (s a b c x : Str) (hx : WsStart x)
    (h : readParameter U s = .tok a b c) : readParameter U (s ++ x) = .tok a b (c ++ x) := by
  unfold readParameter at h ⊢
  rw [spanP_append_ws _ (fun c hc => by simpa using ws_ne c '@' hc (by decide)) _ _ hx]
  simp only at h ⊢
  split at h
  · simp at h
  · rename_i d ds heq
    rw [heq]
    simp only [List.cons_append]
    split at h
    · rename_i hd
      rw [if_pos hd]
      split at h
      · rename_i h'
        simp at h
        obtain ⟨rfl, rfl, rfl⟩ := h
        have := readBackQuoted_append _ _ _ x h'
        rw [List.cons_append] at this
        rw [this]
      · simp at h
    · rename_i hd
      rw [if_neg hd]
      split at h
      · rename_i hi
        rw [if_pos hi]
        simp at h
        obtain ⟨rfl, rfl, rfl⟩ := h
        have := readIdentifier_append hU d ds x hx
        rw [List.cons_append] at this
        simp [this]
      · simp at h

theorem quantifierFollows_append (s x : Str) (hx : WsStart x) :
    quantifierFollows (s ++ x) = quantifierFollows s := by
  cases s with
  | nil =>
    cases x with
    | nil => rfl
    | cons c r =>
      have h1 : c ≠ '@' := ws_ne c '@' (hx c r rfl) (by decide)
      have h2 : c ≠ ',' := ws_ne c ',' (hx c r rfl) (by decide)
      simp [quantifierFollows, h1, h2, ws_not_digit c (hx c r rfl)]
  | cons c cs => rfl

theorem readBrace_append (s a b c x : Str) (hx : WsStart x)
    (h : readBrace s = .tok a b c) : readBrace (s ++ x) = .tok a b (c ++ x) := by
  unfold readBrace at h ⊢
  rw [spanP_append_ws _ (fun c hc => by simpa using ws_ne c '{' hc (by decide)) _ _ hx]
  simp only [quantifierFollows_append _ _ hx] at h ⊢
  split at h
  · rename_i hc
    rw [if_pos hc]
    simp at h
    obtain ⟨rfl, rfl, rfl⟩ := h
    rfl
  · rename_i hc
    rw [if_neg hc]
    split at h
    · rename_i h'
      simp at h
      obtain ⟨rfl, rfl, rfl⟩ := h
      rw [templateLoop_append _ _ _ _ _ hx h']
    · simp at h

theorem ofOption_append (s a b c x : Str) (o o' : Option (Str × Str))
    (ho : ∀ y z, o = some (y, z) → o' = some (y, z ++ x))
    (h : Read.ofOption s o = .tok a b c) : Read.ofOption (s ++ x) o' = .tok a b (c ++ x) := by
  cases o with
  | none => simp [Read.ofOption] at h
  | some r =>
    obtain ⟨y, z⟩ := r
    simp [Read.ofOption] at h
    obtain ⟨rfl, rfl, rfl⟩ := h
    rw [ho _ _ rfl]
    rfl

theorem chars_one_append (c : Char) (cs a b r x : Str) (h : Read.chars 1 (c :: cs) = .tok a b r) :
    Read.chars 1 (c :: (cs ++ x)) = .tok a b (r ++ x) := by
  simp [Read.chars] at h ⊢
  obtain ⟨rfl, rfl, rfl⟩ := h
  simp

theorem chars_two_append (c d : Char) (cs a b r x : Str) (hd : cs.head? = some d)
    (h : Read.chars 2 (c :: cs) = .tok a b r) :
    Read.chars 2 (c :: (cs ++ x)) = .tok a b (r ++ x) := by
  cases cs with
  | nil => simp at hd
  | cons e es =>
    simp [Read.chars] at h ⊢
    obtain ⟨rfl, rfl, rfl⟩ := h
    simp

theorem comment_append (s a b r x : Str)
    (h : (Read.tok (readComment s).1 (trimEnd (readComment s).1) (readComment s).2) = .tok a b r)
    (hr : r ≠ []) :
    (Read.tok (readComment (s ++ x)).1 (trimEnd (readComment (s ++ x)).1) (readComment (s ++ x)).2)
      = .tok a b (r ++ x) := by
  have hs := spanP_append (fun c => c != '\n') s
  have ha := spanP_fst_all (fun c => c != '\n') s
  have hh := spanP_snd_head (fun c => c != '\n') s
  have key : readComment (s ++ x) = ((readComment s).1, (readComment s).2 ++ x) := by
    simp only [readComment] at h ⊢
    simp at h
    conv => lhs; rw [← hs, List.append_assoc]
    apply spanP_of_all _ _ _ ha
    intro c r' hcr
    cases hsnd : (spanP (fun c => c != '\n') s).2 with
    | nil => rw [hsnd] at h; exact absurd h.2.2.symm hr
    | cons d ds =>
      rw [hsnd] at hcr
      simp at hcr
      rw [← hcr.1]
      exact hh d ds hsnd
  rw [key]
  simp at h ⊢
  obtain ⟨rfl, rfl, rfl⟩ := h
  simp

/-- Reading a token is not influenced by what follows a white-space character after it, except for a
line comment that runs to the end of the text. -/
theorem readToken_append {U : Unicode} (hU : U.Lawful) (d : Nat) (c : Char) (cs a b r x : Str)
    (hx : WsStart x) (h : readToken U d c cs = .tok a b r)
    (hc : ¬ IsLineComment b ∨ r ≠ []) :
    readToken U d c (cs ++ x) = .tok a b (r ++ x) := by
  have HD := fun e he => @head?_append_ws cs x hx e he
  have CL : ∀ s, (Read.tok (readComment s).1 (trimEnd (readComment s).1) (readComment s).2) = .tok a b r →
      ((∃ t, s = '#' :: t) ∨ (∃ t, s = '-' :: '-' :: t)) → r ≠ [] := by
    intro s h1 h2
    rcases hc with hc | hc
    · exfalso
      apply hc
      simp at h1
      rcases h2 with ⟨t, rfl⟩ | ⟨t, rfl⟩
      · left
        refine ⟨trimEnd (spanP (fun c => c != '\n') t).1, ?_⟩
        rw [← h1.2.1]
        simp [readComment, spanP, trimEnd_cons, ws_hash]
      · right
        refine ⟨trimEnd (spanP (fun c => c != '\n') t).1, ?_⟩
        rw [← h1.2.1]
        simp [readComment, spanP, trimEnd_cons, ws_dash]
    · exact hc
  unfold readToken at h ⊢
  simp only at h ⊢
  split at h
  · -- '.'
    cases cs with
    | nil =>
      simp only [List.head?_nil] at h
      cases x with
      | nil => simp only [List.append_nil, List.head?_nil]; exact h
      | cons e x =>
        simp only [List.nil_append, List.head?_cons, ws_not_digit e (hx e x rfl)]
        exact chars_one_append '.' [] a b r (e :: x) h
    | cons e es =>
      simp only [List.cons_append, List.head?_cons] at h ⊢
      split at h
      · rename_i he
        rw [if_pos he]
        have := readNumber_append ('.' :: e :: es) x hx
        simp only [List.cons_append] at this
        rw [this]
        simp [Read.exact] at h ⊢
        obtain ⟨rfl, rfl, rfl⟩ := h
        simp
      · rename_i he
        rw [if_neg he]
        exact chars_one_append '.' (e :: es) a b r x h
  · have := comment_append _ _ _ _ x h (CL _ h (.inl ⟨_, rfl⟩))
    simpa using this
  · exact ofOption_append _ _ _ _ x _ _ (fun y z hyz => readBackQuoted_append _ _ _ x hyz) h
  · have key : (((cs ++ x).head? = some '"' ∧ (cs ++ x).tail.head? = some '"')) ↔
        ((cs.head? = some '"' ∧ cs.tail.head? = some '"')) := by
      rw [HD '"' (by decide)]
      by_cases hne : cs = []
      · subst hne; simp
      · rw [tail_head?_append_ws hx _ (by decide) hne]
    simp only [key]
    split at h
    · rename_i hq
      rw [if_pos hq]
      exact ofOption_append _ _ _ _ x _ _
        (fun y z hyz => readMultilineString_append _ (by decide) _ _ _ x hx hyz) h
    · rename_i hq
      rw [if_neg hq]
      exact ofOption_append _ _ _ _ x _ _ (fun y z hyz => readString_append _ _ _ x hyz) h
  · have key : (((cs ++ x).head? = some '\'' ∧ (cs ++ x).tail.head? = some '\'')) ↔
        ((cs.head? = some '\'' ∧ cs.tail.head? = some '\'')) := by
      rw [HD '\'' (by decide)]
      by_cases hne : cs = []
      · subst hne; simp
      · rw [tail_head?_append_ws hx _ (by decide) hne]
    simp only [key]
    split at h
    · rename_i hq
      rw [if_pos hq]
      exact ofOption_append _ _ _ _ x _ _
        (fun y z hyz => readMultilineString_append _ (by decide) _ _ _ x hx hyz) h
    · rename_i hq
      rw [if_neg hq]
      exact ofOption_append _ _ _ _ x _ _ (fun y z hyz => readString_append _ _ _ x hyz) h
  · simp only [HD '-' (by decide)]
    split at h
    · rename_i hq
      rw [if_pos hq]
      cases cs with
      | nil => simp at hq
      | cons e es =>
        simp at hq; subst hq
        have := comment_append _ _ _ _ x h (CL _ h (.inr ⟨_, rfl⟩))
        simpa using this
    · rename_i hq
      rw [if_neg hq]
      exact chars_one_append _ _ _ _ _ x h
  · simp only [HD '*' (by decide)]
    split at h
    · rename_i hq
      rw [if_pos hq]
      exact ofOption_append _ _ _ _ x _ _ (fun y z hyz => readMultilineComment_append _ _ _ x hx hyz) h
    · rename_i hq
      rw [if_neg hq]
      exact chars_one_append _ _ _ _ _ x h
  · simp only [HD '|' (by decide), HD '>' (by decide)]
    split at h
    · rename_i hq
      rw [if_pos hq]
      exact chars_two_append _ _ _ _ _ _ x hq h
    · rename_i hq
      rw [if_neg hq]
      split at h
      · rename_i hq
        rw [if_pos hq]
        exact chars_two_append _ _ _ _ _ _ x hq h
      · rename_i hq
        rw [if_neg hq]
        exact chars_one_append _ _ _ _ _ x h
  · simp only [HD '<' (by decide), HD '>' (by decide), HD '=' (by decide)]
    split at h
    · rename_i hq
      rw [if_pos hq]
      exact chars_two_append _ _ _ _ _ _ x hq h
    · rename_i hq
      rw [if_neg hq]
      split at h
      · rename_i hq
        rw [if_pos hq]
        exact chars_two_append _ _ _ _ _ _ x hq h
      · rename_i hq
        rw [if_neg hq]
        split at h
        · rename_i hq
          rw [if_pos hq]
          exact chars_two_append _ _ _ _ _ _ x hq h
        · rename_i hq
          rw [if_neg hq]
          exact chars_one_append _ _ _ _ _ x h
  · simp only [HD '>' (by decide), HD '=' (by decide)]
    split at h
    · rename_i hq
      rw [if_pos hq]
      exact chars_one_append _ _ _ _ _ x h
    · rename_i hq
      rw [if_neg hq]
      split at h
      · rename_i hq
        rw [if_pos hq]
        exact chars_two_append _ _ _ _ _ _ x hq h
      · rename_i hq
        rw [if_neg hq]
        split at h
        · rename_i hq
          rw [if_pos hq]
          exact chars_two_append _ _ _ _ _ _ x hq h
        · rename_i hq
          rw [if_neg hq]
          exact chars_one_append _ _ _ _ _ x h
  · simp only [HD '>' (by decide)]
    split at h
    · rename_i hq
      rw [if_pos hq]
      exact chars_two_append _ _ _ _ _ _ x hq h
    · rename_i hq
      rw [if_neg hq]
      exact chars_one_append _ _ _ _ _ x h
  · simp only [HD '=' (by decide)]
    split at h
    · rename_i hq
      rw [if_pos hq]
      exact chars_two_append _ _ _ _ _ _ x hq h
    · rename_i hq
      rw [if_neg hq]
      exact chars_one_append _ _ _ _ _ x h
  · exact readParameter_append hU _ _ _ _ x hx h
  · exact readBrace_append _ _ _ _ x hx h
  · split at h
    · rename_i hq
      have := readNumber_append (c :: cs) x hx
      simp only [List.cons_append] at this
      simp only [hq, if_true, this]
      simp [Read.exact] at h ⊢
      obtain ⟨rfl, rfl, rfl⟩ := h
      simp
    · rename_i hq
      simp only [hq]
      split at h
      · rename_i hq
        have := readIdentifier_append hU c cs x hx
        simp only [List.cons_append] at this
        simp only [hq, if_true, this]
        simp [Read.exact] at h ⊢
        obtain ⟨rfl, rfl, rfl⟩ := h
        simp
      · rename_i hq
        simp only [hq]
        exact chars_one_append _ _ _ _ _ x h

theorem stepDepthLit_append (U : Unicode) (d : Nat) (last : Option Str) (c : Char) (cs x : Str)
    (hx : WsStart x) : stepDepthLit U d last c (cs ++ x) = stepDepthLit U d last c cs := by
  unfold stepDepthLit
  simp only [ne_eq, head?_append_ws hx '<' (by decide), head?_append_ws hx '=' (by decide),
    head?_append_ws hx '>' (by decide)]

/-- A token that is a line comment was read by the line comment reader. -/
theorem readToken_line_comment (U : Unicode) (d : Nat) (c : Char) (cs a b r : Str)
    (h : readToken U d c cs = .tok a b r) (hb : IsLineComment b) :
    c :: cs = '#' :: cs ∨ ∃ t, c :: cs = '-' :: '-' :: t := by
  obtain ⟨h1, ⟨w, h2, h3⟩, l, h4⟩ := readToken_good _ _ _ _ _ _ _ h
  rcases hb with ⟨t, rfl⟩ | ⟨t, rfl⟩
  · left
    simp at h4
    rw [h4.1]
  · right
    subst h2
    simp at h1
    exact ⟨t ++ w ++ r, by simp [← h1.1, ← h1.2]⟩

theorem readToken_comment_shape (U : Unicode) (d : Nat) (c : Char) (cs : Str)
    (hc : c :: cs = '#' :: cs ∨ ∃ t, c :: cs = '-' :: '-' :: t) :
    readToken U d c cs =
      .tok (readComment (c :: cs)).1 (trimEnd (readComment (c :: cs)).1) (readComment (c :: cs)).2 := by
  rcases hc with hc | ⟨t, hc⟩
  · simp at hc; subst hc; rfl
  · simp at hc; obtain ⟨rfl, rfl⟩ := hc; rfl

/-- The state at the end of a run. -/
def lastLit (last : Option Str) (ts : List Token) : Option Str :=
  match ts.getLast? with
  | some t => some t.literal
  | none => last

theorem stepDepth_openBrackets (U : Unicode) (d d' : Nat) (last : Option Str) (c : Char) (cs a lit r : Str)
    (ls : List Str)
    (h2 : stepDepthLit U d last c cs = some d') (h3 : readToken U d c cs = .tok a lit r) :
    openBrackets U last d (lit :: ls) = openBrackets U (some lit) d' ls := by
  obtain ⟨h4, ⟨w, h5, h6⟩, l, h7⟩ := readToken_good _ _ _ _ _ _ _ h3
  have e1 : Kw.lit .ARRAY = "ARRAY".toList := rfl
  have e2 : Kw.lit .STRUCT = "STRUCT".toList := rfl
  show openBrackets U (some lit) (bracketStep U last d lit) ls = _
  congr 1
  unfold bracketStep
  unfold stepDepthLit at h2
  split at h2
  · rename_i hc
    obtain ⟨rfl, hc1, hc2, hc3⟩ := hc
    have : lit = ['<'] := by
      simp [readToken, hc1, hc2, hc3, Read.chars] at h3
      exact h3.2.1.symm
    subst this
    cases last with
    | none => simp at h2
    | some q =>
      simp only [litIsArrayOrStruct, e1, e2, Bool.or_eq_true, beq_iff_eq, Option.some.injEq] at h2
      exact h2
  · rename_i hc
    split at h2
    · rename_i hgt
      obtain ⟨rfl, hd⟩ := hgt
      have : lit = ['>'] := by
        simp [readToken, hd, Read.chars] at h3
        exact h3.2.1.symm
      subst this
      simp at h2
      simp [h2]
    · rename_i hgt
      simp at h2
      subst h2
      by_cases hlt : lit = ['<']
      · subst hlt
        exfalso
        apply hc
        simp at h7
        obtain ⟨rfl, rfl⟩ := h7
        refine ⟨rfl, ?_, ?_, ?_⟩ <;>
        · intro hh
          simp [readToken, hh, Read.chars] at h3
          cases cs <;> simp at h3 hh
      · rw [if_neg hlt]
        by_cases hgt' : lit = ['>']
        · subst hgt'
          simp at h7
          obtain ⟨rfl, rfl⟩ := h7
          have : ¬ 0 < d := fun hh => hgt ⟨rfl, hh⟩
          simp; omega
        · rw [if_neg hgt']

/-- Appending text after the end of a run: the run of the first part, then the run of the rest. -/
theorem lexFrom_append {U : Unicode} (hU : U.Lawful) (w b : Str) (hw : AllWs w) (hne : w ≠ [] ∨ b = []) :
    ∀ {p d last a ts}, Run U p d last a ts → ∀ body, ts = body ++ [Token.eof] →
      ((∃ l, lastLit last body = some l ∧ IsLineComment l ∧ body ≠ []) → ('\n' ∈ w ∨ b = [])) →
      lexFrom U p d last (a ++ (w ++ b)) =
        prepend body (lexFrom U (advanceAll p (a ++ w)) (openBrackets U last d (body.map (·.literal)))
          (lastLit last body) b) := by
  intro p d last a ts hrun
  have hx : WsStart (w ++ b) := by
    intro c r hcr
    cases w with
    | nil =>
      rcases hne with hne | hne
      · exact absurd rfl hne
      · subst hne; simp at hcr
    | cons e w =>
      simp at hcr
      rw [← hcr.1]
      exact hw e (by simp)
  induction hrun with
  | @done p d last v hv =>
    intro body hbody hnl
    have : body = [] := by
      cases body with
      | nil => rfl
      | cons t ts => simp at hbody
    subst this
    rw [← List.append_assoc, lexFrom_ws]
    · simp [prepend_nil, openBrackets, lastLit]
    · intro c hc
      rcases List.mem_append.1 hc with hc | hc
      · exact hv c hc
      · exact hw c hc
  | @tok p d d' last v c cs consumed lit rest ts hv hc h2 h3 hr ih =>
    intro body hbody hnl
    obtain ⟨g1, ⟨g2, g3, g4⟩, g5, g6⟩ := readToken_good _ _ _ _ _ _ _ h3
    cases body with
    | nil =>
      exfalso
      simp at hbody
      have := hbody.1
      rw [g6] at this
      simp [Token.eof] at this
    | cons t body =>
      simp only [List.cons_append, List.cons.injEq] at hbody
      obtain ⟨ht, hts⟩ := hbody
      subst ht
      have hll : lastLit last (⟨(advanceAll p v).1, (advanceAll p v).2, lit⟩ :: body) =
          lastLit (some lit) body := by
        cases body with
        | nil => rfl
        | cons t' ts' =>
          simp only [lastLit, List.getLast?_cons_cons]
          rw [List.getLast?_eq_some_getLast (List.cons_ne_nil _ _)]
      rw [hll] at hnl ⊢
      have hopen : openBrackets U last d
          ((⟨(advanceAll p v).1, (advanceAll p v).2, lit⟩ :: body).map (·.literal)) =
          openBrackets U (some lit) d' (body.map (·.literal)) := by
        simp only [List.map_cons]
        exact stepDepth_openBrackets U d d' last c cs consumed lit rest _ h2 h3
      rw [hopen]
      have hadv : ∀ y, advanceAll p (v ++ c :: cs ++ y) =
          advanceAll (advanceAll (advanceAll p v) consumed) (rest ++ y) := by
        intro y
        rw [← advanceAll_append, ← advanceAll_append]
        congr 1
        rw [← g1]
        simp
      rw [show v ++ c :: cs ++ (w ++ b) = v ++ (c :: (cs ++ (w ++ b))) by simp,
        lexFrom_ws _ _ _ _ _ _ hv, lexFrom_cons _ _ _ _ _ _ hc,
        stepDepthLit_append _ _ _ _ _ _ hx, h2]
      simp only
      by_cases hcom : IsLineComment lit ∧ rest = []
      · obtain ⟨hlc, hrest⟩ := hcom
        subst hrest
        -- the comment runs to the end of the first part
        have hb : body = [] ∧ ts = [Token.eof] := by
          have := run_lexFrom hr
          rw [lexFrom_nil] at this
          simp at this
          rw [← this] at hts
          cases body with
          | nil => exact ⟨rfl, by rw [← this]⟩
          | cons t' ts' => simp at hts
        obtain ⟨rfl, rfl⟩ := hb
        have hshape := readToken_line_comment _ _ _ _ _ _ _ h3 hlc
        have hshape' : c :: (cs ++ (w ++ b)) = '#' :: (cs ++ (w ++ b)) ∨
            ∃ t, c :: (cs ++ (w ++ b)) = '-' :: '-' :: t := by
          rcases hshape with hs | ⟨t, hs⟩
          · left; simp at hs; rw [hs]
          · right
            simp at hs
            exact ⟨t ++ (w ++ b), by simp [hs]⟩
        rw [readToken_comment_shape _ _ _ _ hshape'] at *
        rw [readToken_comment_shape _ _ _ _ hshape] at h3
        simp only [Read.tok.injEq] at h3
        obtain ⟨k1, k2, k3⟩ := h3
        have hall := spanP_fst_all (fun c => c != '\n') (c :: cs)
        have happ := spanP_append (fun c => c != '\n') (c :: cs)
        simp only [readComment] at k1 k2 k3
        rw [k3, List.append_nil] at happ
        rw [happ] at hall
        rw [k1] at happ
        -- split w at its first newline
        have hwspan := spanP_append (fun c => c != '\n') w
        generalize hw1 : (spanP (fun c => c != '\n') w).1 = w1 at hwspan
        generalize hw2 : (spanP (fun c => c != '\n') w).2 = w2 at hwspan
        have hw1ws : AllWs w1 := fun e he => hw e (by rw [← hwspan]; simp [he])
        have hw2ws : AllWs w2 := fun e he => hw e (by rw [← hwspan]; simp [he])
        have hw1n : ∀ e ∈ w1, (e != '\n') = true := by
          rw [← hw1]; exact spanP_fst_all _ w
        have hspan : readComment (c :: (cs ++ (w ++ b))) = (c :: cs ++ w1, w2 ++ b) := by
          have : c :: (cs ++ (w ++ b)) = (c :: cs ++ w1) ++ (w2 ++ b) := by
            rw [← hwspan]; simp
          rw [readComment, this]
          apply spanP_of_all
          · intro e he
            rcases List.mem_append.1 he with he | he
            · exact hall e he
            · exact hw1n e he
          · intro e r her
            cases hw2' : w2 with
            | nil =>
              rcases hnl ⟨lit, rfl, hlc, by simp⟩ with hn | hn
              · exfalso
                have : '\n' ∈ w1 := by rw [← hwspan, hw2'] at hn; simpa using hn
                have := hw1n _ this
                simp at this
              · rw [hw2', hn] at her; simp at her
            | cons f fs =>
              rw [hw2'] at her hw2
              simp at her
              rw [← her.1]
              exact spanP_snd_head (fun c => c != '\n') _ _ _ hw2
        rw [hspan]
        simp only
        have htrim : trimEnd (c :: cs ++ w1) = lit := by
          rw [trimEnd_append_ws _ _ hw1ws, ← k2, k1, ← happ]
        rw [htrim, lexFrom_ws _ _ _ _ _ _ hw2ws, ← advanceAll_append, ← advanceAll_append]
        rw [show (v ++ c :: cs) ++ w = v ++ (c :: cs ++ w1 ++ w2) by rw [← hwspan]; simp]
        simp [lastLit, openBrackets, advanceAll_append]
      · have hcom' : ¬ IsLineComment lit ∨ rest ≠ [] := by
          by_cases h : IsLineComment lit
          · right; exact fun hr => hcom ⟨h, hr⟩
          · left; exact h
        rw [readToken_append hU _ _ _ _ _ _ _ hx h3 hcom']
        simp only
        rw [ih body hts]
        · rw [hadv, show (⟨(advanceAll p v).1, (advanceAll p v).2, lit⟩ :: body : List Token) =
            [⟨(advanceAll p v).1, (advanceAll p v).2, lit⟩] ++ body from rfl, prepend_append]
        · rintro ⟨l, hl1, hl2, hl3⟩
          exact hnl ⟨l, hl1, hl2, by simp⟩

/-- The erasure of positions. -/
def eraseTok (t : Token) : Token := ⟨0, 0, t.literal⟩

/-- Same outcome up to positions. -/
def erase : Out (List Token) → Out (List Str)
  | .ok r => .ok (r.map (·.literal))
  | .err e => .err ⟨0, 0, e.msg⟩
  | .panic p => .panic p
  | .timeout => .timeout

theorem erase_prepend (ts ts' : List Token) (o o' : Out (List Token))
    (h1 : ts.map (·.literal) = ts'.map (·.literal)) (h2 : erase o = erase o') :
    erase (prepend ts o) = erase (prepend ts' o') := by
  cases o <;> cases o' <;> simp_all [erase, prepend]

/-- Positions do not influence the literals. -/
theorem lexFrom_erase (U : Unicode) (s : Str) : ∀ p p' d last,
    erase (lexFrom U p d last s) = erase (lexFrom U p' d last s) := by
  induction s using text_induction with
  | h s ih =>
    intro p p' d last
    obtain ⟨w, r, rfl, hw, hr | ⟨c, cs, rfl, hc⟩⟩ := split_ws s
    · subst hr
      rw [lexFrom_ws _ _ _ _ _ _ hw, lexFrom_ws _ _ _ _ _ _ hw, lexFrom_nil, lexFrom_nil]
    · rw [lexFrom_ws _ _ _ _ _ _ hw, lexFrom_ws _ _ _ _ _ _ hw, lexFrom_cons _ _ _ _ _ _ hc,
        lexFrom_cons _ _ _ _ _ _ hc]
      split
      · rfl
      · split
        · rfl
        · rename_i h3
          have := readToken_length _ _ _ _ _ _ _ h3
          exact erase_prepend _ _ _ _ rfl (ih _ (by simp; omega) _ _ _ _)

/-- Move a position by the offset of `q` (which is where position `(1, 1)` goes). -/
def shiftPos (q p : Nat × Nat) : Nat × Nat :=
  (p.1 + (q.1 - 1), if p.1 = 1 then p.2 + (q.2 - 1) else p.2)

/-- Depth zero: the previous literal only matters for a `<` directly at the start. -/
theorem lexFrom_last (U : Unicode) (p : Nat × Nat) (d : Nat) (last : Option Str) (s : Str) (ts : List Token)
    (h : lexFrom U p d none s = .ok ts) : lexFrom U p d last s = .ok ts := by
  obtain ⟨w, r, rfl, hw, hr | ⟨c, cs, rfl, hc⟩⟩ := split_ws s
  · subst hr
    rw [lexFrom_ws _ _ _ _ _ _ hw] at h ⊢
    exact h
  · rw [lexFrom_ws _ _ _ _ _ _ hw, lexFrom_cons _ _ _ _ _ _ hc] at h ⊢
    have : ∀ d', stepDepthLit U d none c cs = some d' → stepDepthLit U d last c cs = some d' := by
      intro d' hd
      unfold stepDepthLit at hd ⊢
      split
      · rename_i hcond
        rw [if_pos hcond] at hd
        simp at hd
      · rename_i hcond
        rw [if_neg hcond] at hd
        exact hd
    cases hd : stepDepthLit U d none c cs with
    | none => rw [hd] at h; simp at h
    | some d' =>
      rw [hd] at h
      rw [this d' hd]
      exact h

end Verif.Lex
