import Verif.Proofs.Slow
import Verif.Spec.Work
import Verif.Props.Lexemes
/-! The work for the texts `Spec.nestedText n` doubles with each level. -/
namespace Verif.Slow
open Core Interp Spec

/-- The innermost query, and what stands after it. -/
def wBase : Window := ⟨["SELECT".toList, "1".toList, ")".toList], 100, .SelectStatement⟩
/-- A level: the query in the gap is the next level. -/
def wStep : Window := ⟨["SELECT".toList, "1".toList, "FROM".toList, "(".toList, "(".toList, "SELECT".toList, [],
  ")".toList, "JOIN".toList, "U".toList, ")".toList, ")".toList], 5, .SelectStatement⟩
/-- The statement. -/
def wTop : Window := ⟨["SELECT".toList, "1".toList, "FROM".toList, "(".toList, "SELECT".toList, [],
  ")".toList, ";".toList], 4, .SelectStatement⟩

/-- A result of the evaluator. -/
def gives (k j : Nat) : Ans (AVal × Nat) → Bool
  | .ok k' (.node .SelectStatement, j') => k == k' && j == j'
  | _ => false

theorem base_gives : gives 0 1 (acall wBase 3 .parse_select_statement [.bool false, .bool true] 0) = true := by
  decide +kernel
theorem step_gives : gives 2 10 (acall wStep 7 .parse_select_statement [.bool false, .bool true] 0) = true := by
  decide +kernel
theorem top_gives : gives 1 7 (acall wTop 5 .parse_statement [.bool true] 0) = true := by
  decide +kernel

theorem of_gives {k j : Nat} {x : Ans (AVal × Nat)} (h : gives k j x = true) : x = .ok k (.node .SelectStatement, j) := by
  unfold gives at h
  split at h
  · simp only [Bool.and_eq_true, beq_iff_eq] at h
    rw [h.1, h.2]
  · cases h

/-- The words that occur. -/
def vocab : List Str := ["SELECT".toList, "1".toList, "FROM".toList, "(".toList, ")".toList, "JOIN".toList,
  "U".toList, ";".toList, []]

theorem vocab_upper {U : Unicode} (hU : U.Lawful) : ∀ l ∈ vocab, U.upper l = U0.upper l := by
  have h1 : ∀ l ∈ vocab, ∀ c ∈ l, c.toNat < 128 := by decide
  have h2 : ∀ l ∈ vocab, ∀ c ∈ l, U0.toUpper c = [c.toUpper] := by decide
  intro l hl
  unfold Unicode.upper
  have : ∀ cs : Str, (∀ c ∈ cs, c.toNat < 128) → (∀ c ∈ cs, U0.toUpper c = [c.toUpper]) →
      cs.flatMap U.toUpper = cs.flatMap U0.toUpper := by
    intro cs
    induction cs with
    | nil => intros; rfl
    | cons c cs ih =>
      intro g1 g2
      simp only [List.flatMap_cons]
      rw [ih (fun c hc => g1 c (by simp [hc])) (fun c hc => g2 c (by simp [hc])),
        hU.upper_ascii c (g1 c (by simp)), g2 c (by simp)]
  exact this l (h1 l hl) (h2 l hl)

/-- The query as literals. -/
def query (n : Nat) : List Str := (nestedQuery n).map String.toList

theorem query_succ (n : Nat) : query (n + 1) =
    ["SELECT".toList, "1".toList, "FROM".toList, "(".toList, "(".toList] ++ query n ++
      [")".toList, "JOIN".toList, "U".toList, ")".toList] := by
  simp only [query, nestedQuery, List.map_append, List.map_cons, List.map_nil]

theorem query_length (n : Nat) : (query n).length = 9 * n + 2 := by
  induction n with
  | zero => rfl
  | succ n ih => rw [query_succ]; simp only [List.length_append, List.length_cons, List.length_nil, ih]; omega

theorem query_head (n : Nat) : (query n)[0]? = some "SELECT".toList := by
  cases n with
  | zero => rfl
  | succ n => rw [query_succ]; rfl

/-- The literals stand in the text from `q` on. -/
def StandAt (T : List Token) (q : Nat) (ls : List Str) : Prop :=
  ∀ j l, ls[j]? = some l → ∃ t, T[q + j]? = some t ∧ t.literal = l

theorem StandAt.right {T : List Token} {q : Nat} {a b : List Str} (h : StandAt T q (a ++ b)) :
    StandAt T (q + a.length) b := by
  intro j l hl
  rw [Nat.add_assoc]
  exact h (a.length + j) l (by rw [List.getElem?_append_right (by omega)]; rw [← hl]; congr 1; omega)

theorem StandAt.left {T : List Token} {q : Nat} {a b : List Str} (h : StandAt T q (a ++ b)) : StandAt T q a := by
  intro j l hl
  have := (List.getElem?_eq_some_iff.1 hl).1
  exact h j l (by rw [List.getElem?_append_left this]; exact hl)

/-- A window whose parts stand in the text around the gap. -/
theorem view_of {w : Window} {U : Unicode} {T : List Token} {q m : Nat} {a b : List Str} {x : Str} (hU : U.Lawful)
    (hnc : ∀ t ∈ T, t.isComment = false) (hw : w.lits = a ++ x :: b) (hg : w.gap + 1 = a.length)
    (ha : StandAt T q a) (hb : StandAt T (q + w.gap + m) b) (hm : 2 ≤ m) (hv : ∀ l ∈ w.lits, l ∈ vocab)
    (hT : q + w.gap + m + b.length < T.length) : View w U T q (m - 2) where
  nc := hnc
  up := fun l hl => vocab_upper hU l (hv l hl)
  more := by
    rw [hw]
    simp only [List.length_append, List.length_cons, at_]
    split <;> omega
  tok := by
    intro i l hl hi
    rw [hw] at hl
    unfold at_
    by_cases h : i ≤ w.gap
    · rw [if_pos h]
      exact ha i l (by rw [List.getElem?_append_left (by omega)] at hl; exact hl)
    · rw [if_neg h]
      rw [List.getElem?_append_right (by omega)] at hl
      obtain ⟨j, hj⟩ : ∃ j, i - a.length = j + 1 := ⟨i - a.length - 1, by omega⟩
      rw [hj, List.getElem?_cons_succ] at hl
      obtain ⟨t, h1, h2⟩ := hb j l hl
      exact ⟨t, by rw [← h1]; congr 1; omega, h2⟩

/-- What the evaluator says about a call. -/
theorem call_gives {w : Window} {U : Unicode} {T : List Token} {fuel p g D W k j n : Nat} {f : Fn} {avs : List AVal}
    {vs : List Val} (h : gives k j (acall w n f avs 0) = true) (hV : View w U T p g)
    (hF : rounds ≤ fuel) (hG : GapOk w U T fuel p g D W) (hvs : RVs avs vs) {N : Nat} (hN : D + n ≤ N) :
    (∃ m, callN U Program.defs T fuel N f vs (ps_ w p g 0) = .ok (.node m, ps_ w p g j) ∧ m.ty = .SelectStatement) ∧
      k * W ≤ workN U Program.defs T fuel N f vs (ps_ w p g 0) := by
  have := call_sound hV hF hG n N hN f avs vs 0 hvs
  rw [of_gives h] at this
  obtain ⟨⟨⟨v, ps⟩, h1, h2, h3⟩, h4⟩ := this
  obtain ⟨m, rfl, h5⟩ := h2
  exact ⟨⟨m, by rw [h1, show ps = _ from h3], h5⟩, h4⟩

theorem one_le_workN (U : Unicode) (defs : Fn → FunDef) (T : List Token) (fuel : Nat) {N : Nat} (h : 1 ≤ N) (f : Fn)
    (vs : List Val) (ps : PS) : 1 ≤ workN U defs T fuel N f vs ps := by
  obtain ⟨N, rfl⟩ : ∃ j, N = j + 1 := ⟨N - 1, by omega⟩
  simp only [workN]
  omega

/-- A query of `n` levels is parsed, and the work is at least `2 ^ n`. -/
theorem query_work {U : Unicode} (hU : U.Lawful) {T : List Token} {fuel : Nat} (hF : rounds ≤ fuel)
    (hnc : ∀ t ∈ T, t.isComment = false) : ∀ (n q : Nat), StandAt T q (query n ++ [")".toList]) →
    q + (query n).length + 1 < T.length → ∀ N, 7 * n + 3 ≤ N →
    (∃ m, callN U Program.defs T fuel N .parse_select_statement [.bool false, .bool true] ⟨q, [], []⟩ =
      .ok (.node m, ⟨q + (query n).length - 1, [], []⟩) ∧ m.ty = .SelectStatement) ∧
    2 ^ n ≤ workN U Program.defs T fuel N .parse_select_statement [.bool false, .bool true] ⟨q, [], []⟩ := by
  intro n
  induction n with
  | zero =>
    intro q hs hT N hN
    have hV : View wBase U T q 0 := {
      nc := hnc
      up := fun l hl => vocab_upper hU l (by revert hl; revert l; decide)
      more := hT
      tok := by
        intro i l hl hi
        have := (List.getElem?_eq_some_iff.1 hl).1
        unfold at_
        rw [if_pos (by simp [wBase] at this ⊢; omega)]
        exact hs i l hl }
    obtain ⟨⟨m, h1, h2⟩, _⟩ := call_gives (D := 0) (W := 0) (fuel := fuel) base_gives hV hF
      (by intro h; exact absurd h (by decide)) (vs := [.bool false, .bool true]) ⟨rfl, rfl, trivial⟩ (N := N) (by omega)
    refine ⟨⟨m, ?_, h2⟩, one_le_workN _ _ _ _ (by omega) _ _ _⟩
    exact h1
  | succ n ih =>
    intro q hs hT N hN
    rw [query_succ] at hs hT
    have hlen := query_length n
    simp only [List.length_append, List.length_cons, List.length_nil] at hT
    rw [List.append_assoc, List.append_assoc] at hs
    have h5 := hs.right
    have hh : StandAt T (q + 5) (query n ++ [")".toList]) := by
      have : query n ++ ([")".toList, "JOIN".toList, "U".toList, ")".toList] ++ [")".toList]) =
        (query n ++ [")".toList]) ++ ["JOIN".toList, "U".toList, ")".toList, ")".toList] := by simp
      rw [this] at h5
      exact h5.left
    have hV : View wStep U T q ((query n).length - 2) := by
      refine view_of (a := ["SELECT".toList, "1".toList, "FROM".toList, "(".toList, "(".toList, "SELECT".toList])
        (b := [")".toList, "JOIN".toList, "U".toList, ")".toList, ")".toList]) hU hnc rfl rfl ?_ ?_ (by omega) (by decide) ?_
      · intro j l hl
        by_cases hj : j < 5
        · refine hs.left j l ?_
          rw [← hl]
          rcases j with _ | _ | _ | _ | _ | j <;> first | rfl | omega
        · have hj5 : j = 5 := by
            have := (List.getElem?_eq_some_iff.1 hl).1
            simp at this
            omega
          subst hj5
          cases hl
          exact hh 0 _ (by rw [List.getElem?_append_left (by omega)]; exact query_head n)
      · exact h5.right
      · show q + 5 + (query n).length + 5 < T.length
        omega
    have hat : ∀ i, 5 < i → at_ wStep q ((query n).length - 2) i = q + (query n).length + i - 2 := by
      intro i hi
      unfold at_
      rw [if_neg (by simp only [wStep]; omega)]
      omega
    have hG : GapOk wStep U T fuel q ((query n).length - 2) (7 * n + 3) (2 ^ n) := by
      intro _ N hN
      obtain ⟨⟨m, h1, h2⟩, h3⟩ := ih (q + 5) hh (by omega) N hN
      refine ⟨⟨m, ?_, h2⟩, h3⟩
      have : ps_ wStep q ((query n).length - 2) (wStep.gap + 1) = ⟨q + 5 + (query n).length - 1, [], []⟩ := by
        unfold ps_
        rw [hat _ (by decide)]
        congr 1
        simp only [wStep]
        omega
      rw [this]
      exact h1
    obtain ⟨⟨m, h1, h2⟩, h3⟩ := call_gives step_gives hV hF hG (vs := [.bool false, .bool true]) ⟨rfl, rfl, trivial⟩
      (N := N) (by omega)
    have h0 : ps_ wStep q ((query n).length - 2) 0 = ⟨q, [], []⟩ := rfl
    have h10 : ps_ wStep q ((query n).length - 2) 10 = ⟨q + (query (n + 1)).length - 1, [], []⟩ := by
      unfold ps_
      rw [hat _ (by omega), query_length, query_length]
      congr 1
    rw [h0, h10] at h1
    rw [h0] at h3
    exact ⟨⟨m, h1, h2⟩, by rw [Nat.pow_succ, Nat.mul_comm]; exact h3⟩

/-- The literals of the statement. -/
def stmtLits (n : Nat) : List Str :=
  ["SELECT".toList, "1".toList, "FROM".toList, "(".toList] ++ query n ++ [")".toList, ";".toList]

theorem query_vocab (n : Nat) : ∀ l ∈ query n, l ∈ vocab.dropLast := by
  induction n with
  | zero => decide
  | succ n ih =>
    intro l hl
    rw [query_succ] at hl
    simp only [List.mem_append] at hl
    rcases hl with (hl | hl) | hl
    · revert l; decide
    · exact ih l hl
    · revert l; decide

theorem stmt_vocab (n : Nat) : ∀ l ∈ stmtLits n, l ∈ vocab.dropLast := by
  intro l hl
  unfold stmtLits at hl
  simp only [List.mem_append] at hl
  rcases hl with (hl | hl) | hl
  · revert l; decide
  · exact query_vocab n l hl
  · revert l; decide

theorem vocab_nc {t : Token} (h : t.literal ∈ vocab) : t.isComment = false := by
  have : ∀ l ∈ vocab, (⟨t.line, t.column, l⟩ : Token).isComment = false := by
    intro l hl
    have h0 : ∀ l ∈ vocab, (⟨0, 0, l⟩ : Token).isComment = false := by decide
    exact h0 l hl
  exact this _ h

/-- Each word is a token when a blank follows. -/
theorem vocab_lexeme {U : Unicode} (hU : U.Lawful) (b : Bool) (r : Str) : ∀ l ∈ vocab.dropLast,
    Lexeme U b l (' ' :: r) := by
  have hsp : U.isAlphabetic ' ' = false := by rw [hU.alpha_ascii ' ' (by decide)]; decide
  have hstop : NotBefore (InWord U) (' ' :: r) := by
    rintro c r' h
    cases h
    rintro (h | h | h)
    · rw [hsp] at h; cases h
    · exact absurd h (by decide)
    · exact absurd h (by decide)
  have hword : ∀ c cs, (c :: cs).all isAsciiLetter = true → (c :: cs).all (fun c => decide (c.toNat < 128)) = true →
      Lexeme U b (c :: cs) (' ' :: r) := by
    intro c cs h h'
    have ha : ∀ d ∈ c :: cs, U.isAlphabetic d = true := by
      intro d hd
      rw [hU.alpha_ascii d (by simpa using List.all_eq_true.1 h' d hd)]
      exact List.all_eq_true.1 h d hd
    exact .word ⟨c, cs, rfl, .inl (ha c (by simp)), fun d hd => .inl (ha d (by simp [hd]))⟩ hstop
  have hsym : ∀ c : Char, c.toNat < 128 → isAsciiLetter c = false → isWhitespaceChar c = false → isDigitChar c = false →
      c ∉ ['"', '\'', '`', '#', '@', '{', '.', '-', '/', '_'] → (∀ b, [c, ' '] ∉ doubles b) →
      Lexeme U b [c] (' ' :: r) := by
    intro c h1 h2 h3 h4 h5 h6
    simp only [List.mem_cons, List.not_mem_nil, or_false, not_or] at h5
    refine .single ?_ ?_
    · rintro (h | h | (h | h) | h | ⟨h, _⟩ | ⟨h, _⟩ | ⟨h, _⟩)
      · rw [h3] at h; cases h
      · rw [h4] at h; cases h
      · rw [hU.alpha_ascii c h1, h2] at h; cases h
      · exact h5.2.2.2.2.2.2.2.2.2 h
      · simp only [List.mem_cons, List.not_mem_nil, or_false] at h
        tauto
      · tauto
      · tauto
      · tauto
    · rintro d r' h
      cases h
      exact h6 b
  intro l hl
  have hl' : l = "SELECT".toList ∨ l = "1".toList ∨ l = "FROM".toList ∨ l = "(".toList ∨ l = ")".toList ∨
      l = "JOIN".toList ∨ l = "U".toList ∨ l = ";".toList := by
    simpa [vocab, List.dropLast] using hl
  rcases hl' with rfl | rfl | rfl | rfl | rfl | rfl | rfl | rfl
  · exact hword 'S' "ELECT".toList (by decide) (by decide)
  · refine .number ⟨['1'], [], [], rfl, by unfold Digits; decide, .inl rfl, .inl rfl, by simp, ?_, ?_, ?_, by simp⟩
    all_goals
      intros
      rintro c r' h
      cases h
      decide
  · exact hword 'F' "ROM".toList (by decide) (by decide)
  · exact hsym '(' (by decide) (by decide) (by decide) (by decide) (by decide) (by decide)
  · exact hsym ')' (by decide) (by decide) (by decide) (by decide) (by decide) (by decide)
  · exact hword 'J' "OIN".toList (by decide) (by decide)
  · exact hword 'U' [] (by decide) (by decide)
  · exact hsym ';' (by decide) (by decide) (by decide) (by decide) (by decide) (by decide)

theorem interleave_blanks : ∀ ls : List Str,
    interleave ([] :: List.replicate ls.length [' ']) ls = ls.flatMap (· ++ [' '])
  | [] => rfl
  | l :: ls => by
    have hb : ∀ ls : List Str, interleave ([' '] :: List.replicate ls.length [' ']) ls =
        ' ' :: interleave ([] :: List.replicate ls.length [' ']) ls := by
      intro ls; cases ls <;> rfl
    have : interleave ([] :: List.replicate (l :: ls).length [' ']) (l :: ls) =
        l ++ interleave ([' '] :: List.replicate ls.length [' ']) ls := by
      simp [interleave, List.replicate_succ]
    rw [this, hb, interleave_blanks ls]
    simp

theorem tokenize_nested {U : Unicode} (hU : U.Lawful) (n : Nat) :
    ∃ body, tokenize U (nestedText n) = .ok (body ++ [Token.eof]) ∧ body.map (·.literal) = stmtLits n := by
  refine (Props.C43_tokens_exact U hU (nestedText n) (stmtLits n)).2
    ⟨⟨[] :: List.replicate (stmtLits n).length [' '], ?_, ?_, ?_, ?_⟩, by simp [stmtLits]⟩
  · simp
  · intro g hg
    simp only [List.mem_cons, List.mem_replicate] at hg
    rcases hg with rfl | ⟨_, rfl⟩
    · intro c hc; cases hc
    · intro c hc; simp at hc; subst hc; decide
  · rw [interleave_blanks]
    unfold nestedText stmtLits query
    simp only [List.flatMap_append, List.flatMap_cons, List.flatMap_nil, List.flatMap_map]
  · intro i l hl
    have hi := (List.getElem?_eq_some_iff.1 hl).1
    rw [List.drop_succ_cons, List.drop_replicate]
    obtain ⟨j, hj⟩ : ∃ j, (stmtLits n).length - i = j + 1 := ⟨(stmtLits n).length - i - 1, by omega⟩
    rw [hj, List.replicate_succ]
    have : ∃ r, interleave ([' '] :: List.replicate j [' ']) ((stmtLits n).drop (i + 1)) = ' ' :: r := by
      cases (stmtLits n).drop (i + 1) <;> exact ⟨_, rfl⟩
    obtain ⟨r, hr⟩ := this
    rw [hr]
    exact vocab_lexeme hU _ r l (stmt_vocab n l (List.mem_of_getElem? hl))

theorem parseLoop_step {U : Unicode} {T : List Token} {fuel depth k : Nat} {ps ps' ps'' : PS} {l : List Node} {m : Node}
    (h1 : isEof T ps 0 = false) (h2 : callN U Program.defs T fuel depth .parse_statement [.bool true] ps = .ok (.node m, ps'))
    (h3 : nextToken T ps' = .ok ps'') :
    parseLoop U T fuel depth (k + 1) ps l = parseLoop U T fuel depth k ps'' (l ++ [m]) := by
  rw [parseLoop, h1]
  simp only [Bool.false_eq_true, if_false, call, h2, h3]

/-- The statement of `n` levels is parsed, and the work is at least `2 ^ n`. -/
theorem nested_work {U : Unicode} (hU : U.Lawful) (n : Nat) {body : List Token}
    (hb : body.map (·.literal) = stmtLits n) :
    (∃ trees, parseTokens U (body ++ [Token.eof]) = .ok trees) ∧ 2 ^ n ≤ parseWork U (body ++ [Token.eof]) := by
  generalize hT : body ++ [Token.eof] = T
  have hlen := query_length n
  have hbl : body.length = (query n).length + 6 := by
    rw [← List.length_map (f := (·.literal)), hb]
    simp only [stmtLits, List.length_append, List.length_cons, List.length_nil]
    omega
  have hTl : T.length = (query n).length + 7 := by rw [← hT]; simp [hbl]
  have hnc : ∀ t ∈ T, t.isComment = false := by
    intro t ht
    rw [← hT] at ht
    rcases List.mem_append.1 ht with h | h
    · refine vocab_nc ?_
      have : t.literal ∈ stmtLits n := by rw [← hb]; exact List.mem_map_of_mem h
      exact List.dropLast_subset _ (stmt_vocab n _ this)
    · simp at h; subst h; rfl
  have hst : StandAt T 0 (stmtLits n) := by
    intro j l hl
    rw [← hb, List.getElem?_map] at hl
    cases hj : body[j]? with
    | none => rw [hj] at hl; cases hl
    | some t =>
      rw [hj] at hl
      cases hl
      have := (List.getElem?_eq_some_iff.1 hj).1
      exact ⟨t, by rw [← hT, Nat.zero_add, List.getElem?_append_left this]; exact hj, rfl⟩
  have hF : rounds ≤ T.length + 1 := by unfold rounds; omega
  unfold stmtLits at hst
  rw [List.append_assoc] at hst
  have h4 : StandAt T 4 (query n ++ [")".toList, ";".toList]) := by simpa using hst.right
  have hh : StandAt T 4 (query n ++ [")".toList]) := by
    have : query n ++ [")".toList, ";".toList] = (query n ++ [")".toList]) ++ [";".toList] := by simp
    rw [this] at h4
    exact h4.left
  have hV : View wTop U T 0 ((query n).length - 2) := by
    refine view_of (a := ["SELECT".toList, "1".toList, "FROM".toList, "(".toList, "SELECT".toList])
      (b := [")".toList, ";".toList]) hU hnc rfl rfl ?_ ?_ (by omega) (by decide) ?_
    · intro j l hl
      by_cases hj : j < 4
      · refine hst.left j l ?_
        rw [← hl]
        rcases j with _ | _ | _ | _ | j <;> first | rfl | omega
      · have hj5 : j = 4 := by
          have := (List.getElem?_eq_some_iff.1 hl).1
          simp at this
          omega
        subst hj5
        cases hl
        exact hh 0 _ (by rw [List.getElem?_append_left (by omega)]; exact query_head n)
    · have := h4.right
      rw [show 0 + wTop.gap + (query n).length = 4 + (query n).length by simp [wTop]]
      exact this
    · show 0 + 4 + (query n).length + 2 < T.length
      omega
  have hat : ∀ i, 4 < i → at_ wTop 0 ((query n).length - 2) i = (query n).length + i - 2 := by
    intro i hi
    unfold at_
    rw [if_neg (by simp only [wTop]; omega)]
    omega
  have hG : GapOk wTop U T (T.length + 1) 0 ((query n).length - 2) (7 * n + 3) (2 ^ n) := by
    intro _ N hN
    obtain ⟨⟨m, h1, h2⟩, h3⟩ := query_work hU hF hnc n 4 hh (by omega) N hN
    refine ⟨⟨m, ?_, h2⟩, h3⟩
    have : ps_ wTop 0 ((query n).length - 2) (wTop.gap + 1) = ⟨4 + (query n).length - 1, [], []⟩ := by
      unfold ps_
      rw [hat _ (by decide)]
      congr 1
      simp only [wTop]
      omega
    rw [this]
    exact h1
  obtain ⟨⟨m, h1, h2⟩, h3⟩ := call_gives top_gives hV hF hG (vs := [.bool true]) ⟨rfl, trivial⟩
    (N := 4 * T.length) (by omega)
  have h0 : ps_ wTop 0 ((query n).length - 2) 0 = ⟨0, [], []⟩ := rfl
  have h7 : ps_ wTop 0 ((query n).length - 2) 7 = ⟨(query n).length + 5, [], []⟩ := by
    unfold ps_
    rw [hat _ (by omega)]
    rfl
  rw [h0, h7] at h1
  rw [h0, Nat.one_mul] at h3
  obtain ⟨t0, ts, hts⟩ : ∃ t0 ts, T = t0 :: ts := by
    cases T with
    | nil => simp at hTl
    | cons t ts => exact ⟨t, ts, rfl⟩
  obtain ⟨t1, ts', hts'⟩ : ∃ t1 ts', ts = t1 :: ts' := by
    cases ts with
    | nil => rw [hts] at hTl; simp at hTl
    | cons t ts => exact ⟨t, ts, rfl⟩
  have hnew : Core.new T = .ok ⟨0, [], []⟩ := by
    have c0 := hnc t0 (by rw [hts]; simp)
    have c1 := hnc t1 (by rw [hts, hts']; simp)
    unfold Core.new
    have hl0 : leadingComments T = 0 := by rw [hts]; simp [leadingComments, c0]
    simp only [hl0]
    rw [hts]
    simp only [List.getElem?_cons_zero]
    rw [if_neg (by rw [← hts]; omega)]
    simp [hts', trailingNew, c1, range]
  have heof : isEof T ⟨0, [], []⟩ 0 = false := by
    unfold isEof getOffsetIndex
    simp only [if_true, decide_eq_false_iff_not]
    omega
  constructor
  · have hnext : nextToken T ⟨(query n).length + 5, [], []⟩ = .ok ⟨(query n).length + 6, [], []⟩ := by
      unfold nextToken
      rw [offset hV (by omega)]
      simp only [List.getLast?_nil, range, Nat.sub_self, List.range'_zero]
      have hlast : getOffsetIndex T ⟨(query n).length + 5 + 1, [], []⟩ 1 =
          .err ⟨Token.eof.line, Token.eof.column, .followedByEof⟩ := by
        unfold getOffsetIndex
        rw [if_neg (by omega)]
        rw [List.drop_eq_nil_of_le (by simp only; omega)]
        simp only [scanFrom]
        rw [← hT, List.getLast?_append]
        rfl
      rw [hlast]
    have heof2 : isEof T ⟨(query n).length + 6, [], []⟩ 0 = true := by
      unfold isEof getOffsetIndex
      simp only [if_true, decide_eq_true_eq]
      omega
    obtain ⟨fu, hfu⟩ : ∃ fu, T.length + 1 = fu + 1 + 1 := ⟨T.length - 1, by omega⟩
    obtain ⟨t, ht⟩ : ∃ t, T[(query n).length + 6]? = some t := ⟨_, List.getElem?_eq_getElem (by omega)⟩
    have hc : construct U T ⟨(query n).length + 6, [], []⟩ .EOF = .ok (Node.empty .EOF) := by
      unfold construct getToken
      rw [show getOffsetIndex T ⟨(query n).length + 6, [], []⟩ 0 = .ok ((query n).length + 6) from rfl]
      simp only [tokAt, ht, if_true]
      exact Cut.attach_nil _ _ _
    refine ⟨[] ++ [m] ++ [Node.empty .EOF], ?_⟩
    unfold parseTokens parseTokensWith
    rw [hnew]
    show parseLoop U T (T.length + 1) (4 * T.length) (T.length + 1) ⟨0, [], []⟩ [] = _
    have e1 : parseLoop U T (T.length + 1) (4 * T.length) (fu + 1) ⟨(query n).length + 6, [], []⟩ ([] ++ [m]) =
        .ok ([] ++ [m] ++ [Node.empty .EOF]) := by
      simp only [parseLoop, heof2, if_true]
      rw [hc]
      rfl
    rw [← e1]
    have e2 : ∀ k, k = fu + 1 + 1 → parseLoop U T (T.length + 1) (4 * T.length) k ⟨0, [], []⟩ [] =
        parseLoop U T (T.length + 1) (4 * T.length) (fu + 1) ⟨(query n).length + 6, [], []⟩ ([] ++ [m]) := by
      rintro _ rfl
      exact parseLoop_step heof h1 hnext
    exact e2 _ hfu
  · unfold parseWork
    rw [hnew]
    show 2 ^ n ≤ parseLoopWork U T (T.length + 1) (4 * T.length) (T.length + 1) ⟨0, [], []⟩
    rw [parseLoopWork, heof]
    refine Nat.le_trans h3 ?_
    simp only [Bool.false_eq_true, if_false]
    exact Nat.le_add_right _ _

end Verif.Slow
