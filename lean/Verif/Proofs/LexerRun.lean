import Verif.Proofs.LexerScan
/-! Consequences of a successful (or failing) run of the tokenizer. -/
namespace Verif.Lex
open Verif.Spec

theorem tokenize_run {U : Unicode} {code : Str} {toks : List Token} (h : tokenize U code = .ok toks) :
    Run U (1, 1) 0 none code toks := by
  rw [tokenize_lexFrom] at h
  exact lexFrom_run _ _ _ _ _ _ h

theorem allWs_append {a b : Str} (ha : AllWs a) (hb : AllWs b) : AllWs (a ++ b) := by
  intro c hc
  rcases List.mem_append.1 hc with h | h
  · exact ha c h
  · exact hb c h

theorem run_interleave {U : Unicode} {p : Nat × Nat} {d : Nat} {last : Option Str} {s : Str}
    {ts : List Token} (h : Run U p d last s ts) : ∀ pre pend, AllWs pend →
    p = (lineAfter (pre ++ pend), columnAfter (pre ++ pend)) →
    ∃ body gaps, ts = body ++ [Token.eof] ∧ gaps.length = body.length + 1 ∧ (∀ g ∈ gaps, AllWs g) ∧
      (∀ t ∈ body, ∃ c l, t.literal = c :: l ∧ isWhitespaceChar c = false) ∧
      pend ++ s = interleave gaps (body.map (·.literal)) ∧
      ∀ i t, body[i]? = some t →
        t.line = lineAfter (pre ++ interleave (gaps.take (i + 1)) ((body.map (·.literal)).take i)) ∧
        t.column = columnAfter (pre ++ interleave (gaps.take (i + 1)) ((body.map (·.literal)).take i)) := by
  induction h with
  | @done p d last w hw =>
    intro pre pend hpend hp
    refine ⟨[], [pend ++ w], rfl, rfl, ?_, by simp, by simp [interleave], by simp⟩
    intro g hg
    simp at hg
    subst hg
    exact allWs_append hpend hw
  | @tok p d d' last w c cs consumed lit rest ts hw hc h2 h3 hr ih =>
    intro pre pend hpend hp
    obtain ⟨g1, ⟨g2, g3, g4⟩, g5, g6⟩ := readToken_good _ _ _ _ _ _ _ h3
    have hpw := advanceAll_cat _ w _ hp
    have hpw2 := advanceAll_cat _ consumed _ hpw
    obtain ⟨body, gaps, i1, i2, i3, i4, i5, i6⟩ := ih (pre ++ pend ++ w ++ lit) g2 g4 (by
      rw [hpw2, g3]; simp)
    refine ⟨⟨(advanceAll p w).1, (advanceAll p w).2, lit⟩ :: body, (pend ++ w) :: gaps,
      by simp [i1], by simp [i2], ?_, ?_, ?_, ?_⟩
    · intro g hg
      rcases List.mem_cons.1 hg with h | h
      · subst h; exact allWs_append hpend hw
      · exact i3 g h
    · intro t ht
      rcases List.mem_cons.1 ht with h | h
      · subst h; exact ⟨c, g5, g6, hc⟩
      · exact i4 t h
    · simp only [List.map_cons, interleave]
      rw [← i5, ← g1, g3]
      simp
    · intro i t hit
      cases i with
      | zero =>
        simp at hit
        subst hit
        rw [hpw]
        simp [interleave]
      | succ i =>
        simp at hit
        have := i6 i t hit
        simp only [List.map_cons, List.take_succ_cons, interleave]
        simpa using this

theorem interleave_take (gaps lits : List Str) (i : Nat) (l : Str) (hlen : gaps.length = lits.length + 1)
    (hi : lits[i]? = some l) :
    ∃ after, interleave gaps lits = interleave (gaps.take (i + 1)) (lits.take i) ++ l ++ after := by
  induction lits generalizing gaps i with
  | nil => simp at hi
  | cons m ms ih =>
    cases gaps with
    | nil => simp at hlen
    | cons g gs =>
      simp at hlen
      cases i with
      | zero =>
        simp at hi
        subst hi
        exact ⟨interleave gs ms, by simp [interleave]⟩
      | succ i =>
        simp at hi
        obtain ⟨after, h⟩ := ih gs i hlen hi
        exact ⟨after, by simp [interleave, h]⟩

/-- Every token of a run was read by `readToken` at its position. -/
theorem run_token {U : Unicode} {p : Nat × Nat} {d : Nat} {last : Option Str} {s : Str} {ts : List Token}
    (h : Run U p d last s ts) : ∀ b, p = (lineAfter b, columnAfter b) →
    ∀ pre t post, ts = pre ++ t :: post → t ≠ Token.eof →
    ∃ x c cs consumed rest, s = x ++ c :: cs ∧
      readToken U (openBrackets U last d (pre.map (·.literal))) c cs = .tok consumed t.literal rest ∧
      isWhitespaceChar c = false ∧
      t.line = lineAfter (b ++ x) ∧ t.column = columnAfter (b ++ x) := by
  induction h with
  | @done p d last w hw =>
    intro b hp pre t post hts ht
    exfalso
    cases pre with
    | nil => simp at hts; exact ht hts.1.symm
    | cons a pre => simp at hts
  | @tok p d d' last w c cs consumed lit rest ts hw hc h2 h3 hr ih =>
    intro b hp pre t post hts ht
    obtain ⟨g1, ⟨g2, g3, g4⟩, g5, g6⟩ := readToken_good _ _ _ _ _ _ _ h3
    have hpw := advanceAll_cat _ w _ hp
    have hpw2 := advanceAll_cat _ consumed _ hpw
    cases pre with
    | nil =>
      simp only [List.nil_append, List.cons.injEq] at hts
      obtain ⟨rfl, -⟩ := hts
      exact ⟨w, c, cs, consumed, rest, rfl, by simpa [openBrackets] using h3, hc, by rw [hpw], by rw [hpw]⟩
    | cons a pre =>
      simp only [List.cons_append, List.cons.injEq] at hts
      obtain ⟨rfl, hts⟩ := hts
      obtain ⟨x, c', cs', consumed', rest', j1, j2, j3, j4, j5⟩ :=
        ih (b ++ w ++ consumed) hpw2 pre t post hts ht
      refine ⟨w ++ consumed ++ x, c', cs', consumed', rest', ?_, ?_, j3, ?_, ?_⟩
      · rw [← g1, j1]; simp
      · simp only [List.map_cons]
        rw [stepDepth_openBrackets U d d' last c cs consumed lit rest _ h2 h3]
        exact j2
      · rw [j4]; simp
      · rw [j5]; simp

/-- The origin of a token of `tokenize`. -/
theorem token_origin {U : Unicode} {code : Str} {toks pre post : List Token} {t : Token}
    (h : tokenize U code = .ok toks) (hts : toks = pre ++ t :: post) (ht : t ≠ Token.eof) :
    ∃ before after c cs consumed rest, Occurs code t before after ∧ t.literal ++ after = c :: cs ∧
      readToken U (openBrackets U none 0 (pre.map (·.literal))) c cs = .tok consumed t.literal rest ∧
      consumed ++ rest = c :: cs ∧ ∃ w, AllWs w ∧ consumed = t.literal ++ w := by
  obtain ⟨x, c, cs, consumed, rest, j1, j2, j3, j4, j5⟩ :=
    run_token (tokenize_run h) [] rfl pre t post hts ht
  obtain ⟨g1, ⟨g2, g3, g4⟩, g5, g6⟩ := readToken_good _ _ _ _ _ _ _ j2
  refine ⟨x, g2 ++ rest, c, cs, consumed, rest, ⟨?_, ?_, ?_⟩, ?_, j2, g1, g2, g4, g3⟩
  · rw [j1, ← g1, g3]; simp
  · simpa using j4
  · simpa using j5
  · rw [← g1, g3]; simp

theorem mem_token_origin {U : Unicode} {code : Str} {toks : List Token} {t : Token}
    (h : tokenize U code = .ok toks) (hmem : t ∈ toks) (ht : t ≠ Token.eof) :
    ∃ d before after c cs consumed rest, Occurs code t before after ∧ t.literal ++ after = c :: cs ∧
      readToken U d c cs = .tok consumed t.literal rest ∧
      consumed ++ rest = c :: cs ∧ ∃ w, AllWs w ∧ consumed = t.literal ++ w := by
  obtain ⟨pre, post, hts⟩ := List.append_of_mem hmem
  obtain ⟨a, b, c, d, e, f, g⟩ := token_origin h hts ht
  exact ⟨_, a, b, c, d, e, f, g⟩

/-! ### Errors and panics -/

theorem readParameter_fail (U : Unicode) (s consumed : Str) (m : Msg)
    (h : readParameter U s = .fail consumed m) :
    (m = .unexpectedEof ∧ consumed = s) ∨
    (m = .invalidIdent ∧ ∃ rest, s = consumed ++ rest ∧ (∀ c ∈ consumed, c = '@') ∧
      (rest = [] ∨ ∃ c r, rest = c :: r ∧ c ≠ '@' ∧ c ≠ '`' ∧ U.isAlphabetic c = false ∧ c ≠ '_')) := by
  unfold readParameter at h
  have hs := spanP_append (fun c => c == '@') s
  have ha := spanP_fst_all (fun c => c == '@') s
  have hh := spanP_snd_head (fun c => c == '@') s
  simp only at h
  split at h
  · rename_i heq
    right
    simp at h
    obtain ⟨rfl, rfl⟩ := h
    exact ⟨rfl, [], by rw [← heq, hs], fun c hc => by simpa using ha c hc, .inl rfl⟩
  · rename_i c cs heq
    split at h
    · split at h
      · simp at h
      · simp at h
        left; exact ⟨h.2.symm, h.1.symm⟩
    · split at h
      · simp at h
      · rename_i hbq hid
        right
        simp at h
        obtain ⟨rfl, rfl⟩ := h
        refine ⟨rfl, c :: cs, by rw [← heq, hs], fun c hc => by simpa using ha c hc, .inr ⟨c, cs, rfl, ?_, hbq, ?_⟩⟩
        · simpa using hh c cs heq
        · simpa [identStart] using hid

theorem readBrace_fail (s consumed : Str) (m : Msg) (h : readBrace s = .fail consumed m) :
    m = .unexpectedEof ∧ consumed = s := by
  unfold readBrace at h
  simp only at h
  split at h
  · simp at h
  · split at h
    · simp at h
    · simp at h; exact ⟨h.2.symm, h.1.symm⟩

theorem readToken_fail (U : Unicode) (d : Nat) (c : Char) (cs consumed : Str) (m : Msg)
    (h : readToken U d c cs = .fail consumed m) :
    (m = .unexpectedEof ∧ consumed = c :: cs) ∨
    (m = .invalidIdent ∧ ∃ rest, c :: cs = consumed ++ rest ∧ consumed ≠ [] ∧ (∀ c ∈ consumed, c = '@') ∧
      (rest = [] ∨ ∃ c r, rest = c :: r ∧ c ≠ '@' ∧ c ≠ '`' ∧ U.isAlphabetic c = false ∧ c ≠ '_')) := by
  have CO : ∀ o, Read.ofOption (c :: cs) o = .fail consumed m → m = .unexpectedEof ∧ consumed = c :: cs := by
    intro o ho
    cases o with
    | none => simp [Read.ofOption] at ho; exact ⟨ho.2.symm, ho.1.symm⟩
    | some r => simp [Read.ofOption] at ho
  unfold readToken at h
  simp only at h
  split at h
  · split at h
    · split at h <;> simp [Read.exact, Read.chars] at h
    · simp [Read.chars] at h
  · simp at h
  · exact .inl (CO _ h)
  · split at h
    · exact .inl (CO _ h)
    · exact .inl (CO _ h)
  · split at h
    · exact .inl (CO _ h)
    · exact .inl (CO _ h)
  · split at h <;> simp [Read.chars] at h
  · split at h
    · exact .inl (CO _ h)
    · simp [Read.chars] at h
  · split at h
    · simp [Read.chars] at h
    · split at h <;> simp [Read.chars] at h
  · split at h
    · simp [Read.chars] at h
    · split at h
      · simp [Read.chars] at h
      · split at h <;> simp [Read.chars] at h
  · split at h
    · simp [Read.chars] at h
    · split at h
      · simp [Read.chars] at h
      · split at h <;> simp [Read.chars] at h
  · split at h <;> simp [Read.chars] at h
  · split at h <;> simp [Read.chars] at h
  · rcases readParameter_fail _ _ _ _ h with h' | ⟨h1, rest, h2, h3, h4⟩
    · exact .inl h'
    · refine .inr ⟨h1, rest, h2, ?_, h3, h4⟩
      rintro rfl
      simp at h2
      rcases h4 with h4 | ⟨e, r, h4, h5, _⟩
      · rw [h4] at h2; simp at h2
      · rw [h4] at h2; simp at h2; exact h5 h2.1.symm
  · exact .inl (readBrace_fail _ _ _ h)
  · split at h
    · simp [Read.exact] at h
    · split at h <;> simp [Read.exact, Read.chars] at h

theorem prepend_err {ts : List Token} {o : Out (List Token)} {e : Err} (h : prepend ts o = .err e) : o = .err e := by
  cases o <;> simp [prepend] at h
  rw [h]

theorem prepend_panic {ts : List Token} {o : Out (List Token)} {e : Panic} (h : prepend ts o = .panic e) :
    o = .panic e := by
  cases o <;> simp [prepend] at h
  rw [h]

theorem lexFrom_err (U : Unicode) (s : Str) : ∀ p d last e b,
    lexFrom U p d last s = .err e → p = (lineAfter b, columnAfter b) →
    (e.msg = .unexpectedEof ∧ e.line = lineAfter (b ++ s) ∧ e.column = columnAfter (b ++ s)) ∨
    (e.msg = .invalidIdent ∧ ∃ x y, s = x ++ '@' :: y ∧
      ((e.line = lineAfter (b ++ x ++ ['@']) ∧ e.column = columnAfter (b ++ x ++ ['@'])) ∧
      (y = [] ∨ ∃ c r, y = c :: r ∧ c ≠ '@' ∧ c ≠ '`' ∧ U.isAlphabetic c = false ∧ c ≠ '_'))) := by
  induction s using text_induction with
  | h s ih =>
    intro p d last e b h hp
    obtain ⟨w, r, rfl, hw, hr | ⟨c, cs, rfl, hc⟩⟩ := split_ws s
    · subst hr
      rw [lexFrom_ws _ _ _ _ _ _ hw, lexFrom_nil] at h
      simp at h
    · rw [lexFrom_ws _ _ _ _ _ _ hw, lexFrom_cons _ _ _ _ _ _ hc] at h
      have hpw := advanceAll_cat _ w _ hp
      split at h
      · simp at h
      · rename_i d' h2
        split at h
        · rename_i consumed m h3
          have hpw2 := advanceAll_cat _ consumed _ hpw
          simp at h
          subst h
          simp only [hpw2]
          rcases readToken_fail _ _ _ _ _ _ h3 with ⟨rfl, rfl⟩ | ⟨rfl, rest, k1, k2, k3, k4⟩
          · left
            simp
          · right
            refine ⟨rfl, w ++ consumed.dropLast, rest, ?_, ⟨?_, ?_⟩, k4⟩
            · have hl := k3 _ (List.getLast_mem k2)
              rw [k1]
              conv => lhs; rw [← List.dropLast_concat_getLast k2, hl]
              simp
            · have hl := k3 _ (List.getLast_mem k2)
              conv => lhs; rw [← List.dropLast_concat_getLast k2, hl]
              simp
            · have hl := k3 _ (List.getLast_mem k2)
              conv => lhs; rw [← List.dropLast_concat_getLast k2, hl]
              simp
        · rename_i consumed lit rest h3
          have hpw2 := advanceAll_cat _ consumed _ hpw
          have := readToken_length _ _ _ _ _ _ _ h3
          obtain ⟨g1, _⟩ := readToken_good _ _ _ _ _ _ _ h3
          rcases ih rest (by simp; omega) _ _ _ _ _ (prepend_err h) hpw2 with ⟨k1, k2, k3⟩ | ⟨k1, x, y, k2, ⟨k3, k4⟩, k5⟩
          · left
            rw [← g1]
            refine ⟨k1, ?_, ?_⟩
            · rw [k2]; simp
            · rw [k3]; simp
          · right
            refine ⟨k1, w ++ consumed ++ x, y, ?_, ⟨?_, ?_⟩, k5⟩
            · rw [← g1, k2]; simp
            · simpa using k3
            · simpa using k4

theorem lexFrom_some_no_panic (U : Unicode) (s : Str) : ∀ p d l e, lexFrom U p d (some l) s ≠ .panic e := by
  induction s using text_induction with
  | h s ih =>
    intro p d l e h
    obtain ⟨w, r, rfl, hw, hr | ⟨c, cs, rfl, hc⟩⟩ := split_ws s
    · subst hr
      rw [lexFrom_ws _ _ _ _ _ _ hw, lexFrom_nil] at h
      simp at h
    · rw [lexFrom_ws _ _ _ _ _ _ hw, lexFrom_cons _ _ _ _ _ _ hc] at h
      split at h
      · rename_i h2
        unfold stepDepthLit at h2
        split at h2
        · simp at h2
        · split at h2 <;> simp at h2
      · split at h
        · simp at h
        · rename_i h3
          have := readToken_length _ _ _ _ _ _ _ h3
          exact ih _ (by simp; omega) _ _ _ _ (prepend_panic h)

/-! ### Shifting positions -/

theorem shiftPos_advanceAll (q : Nat × Nat) (s : Str) : ∀ p : Nat × Nat, 1 ≤ p.1 →
    shiftPos q (advanceAll p s) = advanceAll (shiftPos q p) s ∧ 1 ≤ (advanceAll p s).1 := by
  induction s with
  | nil => intro p hp; exact ⟨rfl, hp⟩
  | cons c s ih =>
    intro p hp
    have h1 : shiftPos q (advance p c) = advance (shiftPos q p) c := by
      unfold advance
      split
      · simp [shiftPos]; omega
      · simp [shiftPos]
        split <;> omega
    have h2 : 1 ≤ (advance p c).1 := by
      unfold advance
      split <;> simp; omega
    have := ih (advance p c) h2
    simp only [advanceAll, List.foldl_cons] at this ⊢
    rw [← h1]
    exact this

theorem lexFrom_shift (U : Unicode) (q : Nat × Nat) (s : Str) : ∀ p d last, 1 ≤ p.1 → ∀ ts,
    lexFrom U p d last s = .ok (ts ++ [Token.eof]) →
    lexFrom U (shiftPos q p) d last s =
      .ok (ts.map (fun t => ⟨(shiftPos q (t.line, t.column)).1, (shiftPos q (t.line, t.column)).2, t.literal⟩) ++
        [Token.eof]) := by
  induction s using text_induction with
  | h s ih =>
    intro p d last hp ts h
    obtain ⟨w, r, rfl, hw, hr | ⟨c, cs, rfl, hc⟩⟩ := split_ws s
    · subst hr
      rw [lexFrom_ws _ _ _ _ _ _ hw, lexFrom_nil] at h ⊢
      have : ts = [] := by
        cases ts with
        | nil => rfl
        | cons t ts => simp at h
      subst this
      rfl
    · rw [lexFrom_ws _ _ _ _ _ _ hw, lexFrom_cons _ _ _ _ _ _ hc] at h ⊢
      obtain ⟨e1, e2⟩ := shiftPos_advanceAll q w p hp
      split at h
      · simp at h
      · split at h
        · simp at h
        · rename_i d' h2 consumed lit rest h3
          have := readToken_length _ _ _ _ _ _ _ h3
          obtain ⟨e3, e4⟩ := shiftPos_advanceAll q consumed _ e2
          obtain ⟨r', k1, k2⟩ := prepend_ok h
          cases ts with
          | nil =>
            simp at k2
            obtain ⟨g1, ⟨g2, g3, g4⟩, g5, g6⟩ := readToken_good _ _ _ _ _ _ _ h3
            have := k2.1
            simp [Token.eof, g6] at this
          | cons t ts =>
            simp at k2
            obtain ⟨rfl, rfl⟩ := k2
            rw [← e1, ← e3, ih rest (by simp; omega) _ _ _ e4 ts k1]
            simp [prepend]

/-! ### Completeness of the string and comment readers -/

theorem stringLoop_complete (q : Char) (body : Str) : ∀ odd, parity odd body = false →
    (∀ x y, body = x ++ q :: y → parity odd x = true) →
    ∀ rest, stringLoop q odd (body ++ q :: rest) = some (body ++ [q], rest) := by
  induction body with
  | nil =>
    intro odd h _ rest
    simp [parity] at h
    simp [stringLoop, h]
  | cons c body ih =>
    intro odd h1 h2 rest
    simp only [List.cons_append]
    unfold stringLoop
    have : ¬ (odd = false ∧ c = q) := by
      rintro ⟨rfl, rfl⟩
      have := h2 [] body rfl
      simp [parity] at this
    rw [if_neg this]
    rw [ih]
    · simpa [parity] using h1
    · intro x y hxy
      have := h2 (c :: x) y (by simp [hxy])
      simpa [parity] using this

theorem multilineStringLoop_complete (q : Char) (body : Str) : ∀ odd, parity odd body = false →
    (∀ x y, x ++ q :: q :: q :: y = body ++ [q, q, q] → x.length < body.length → parity odd x = true) →
    ∀ rest, multilineStringLoop q odd (body ++ q :: q :: q :: rest) = some (body ++ [q, q, q], rest) := by
  induction body with
  | nil =>
    intro odd h _ rest
    simp [parity] at h
    simp [multilineStringLoop, h]
  | cons c body ih =>
    intro odd h1 h2 rest
    simp only [List.cons_append]
    unfold multilineStringLoop
    have : ¬ (odd = false ∧ c = q ∧ (body ++ q :: q :: q :: rest).head? = some q ∧
        (body ++ q :: q :: q :: rest).tail.head? = some q) := by
      rintro ⟨rfl, rfl, h3, h4⟩
      have hex : ∃ y, c :: c :: c :: y = c :: body ++ [c, c, c] := by
        match body, h3, h4 with
        | [], _, _ => exact ⟨[c], rfl⟩
        | [e], h3, h4 => simp at h3; subst h3; exact ⟨[e, e], rfl⟩
        | e :: f :: r, h3, h4 => simp at h3 h4; subst h3; subst h4; exact ⟨r ++ [f, f, f], rfl⟩
      obtain ⟨y, hy⟩ := hex
      have := h2 [] y (by simpa using hy) (by simp)
      simp [parity] at this
    rw [if_neg this]
    rw [ih]
    · simpa [parity] using h1
    · intro x y hxy hl
      have := h2 (c :: x) y (by simp [hxy]) (by simpa using hl)
      simpa [parity] using this

end Verif.Lex
