import Verif.Proofs.AcceptCmd
import Verif.Proofs.Strip
import Verif.Spec.Script
import Verif.Props.Trees
/-! Soundness of the acceptance analysis, part 5: from a script to the outcome of `parse`. -/
namespace Verif.GI
open AI Spec Core

theorem isWordLit_iff (l : Str) : isWordLit l = true ↔ PlainIdentifier l := by
  have hs : ∀ c, Token.identStart c = true ↔ (isAsciiLetter c = true ∨ c = '_') := by
    intro c; simp [Token.identStart, isAsciiLetter]
  have hr : ∀ c, Token.identRest c = true ↔ (isAsciiLetter c = true ∨ c = '_' ∨ isDigitChar c = true) := by
    intro c; simp [Token.identRest, Token.identStart, isAsciiLetter, isDigitChar]; tauto
  unfold PlainIdentifier
  cases l with
  | nil => simp [isWordLit]
  | cons c cs =>
    simp only [isWordLit, Bool.and_eq_true, List.all_eq_true]
    constructor
    · rintro ⟨h1, h2⟩
      exact ⟨c, cs, rfl, (hs c).1 h1, fun d hd => (hr d).1 (h2 d hd)⟩
    · rintro ⟨c', cs', h, h1, h2⟩
      cases h
      exact ⟨(hs c).2 h1, fun d hd => (hr d).2 (h2 d hd)⟩

theorem gcls_isWord {l : Str} {k : Kw} (h : IsWord l k.lit) : gcls l = k.ctorIdx := by
  have hcl : clsOf (l.map Char.toUpper) = k.ctorIdx := by
    rw [show l.map Char.toUpper = k.lit from h]; exact clsOf_lit k (mem_kw_all k)
  obtain ⟨c, cs, hk, _⟩ := kw_lit k
  have hne : l ≠ [] := by
    rintro rfl
    have : ([] : Str) = k.lit := h
    rw [hk] at this
    cases this
  have := kw_lt k
  unfold gcls
  rw [if_neg hne, if_pos (by rw [hcl]; omega), hcl]

theorem quotedBy_of {q : Char} {b l : Str} (h : l = q :: (b ++ [q])) : (litTok l).quotedBy q = true := by
  subst h
  unfold Token.quotedBy litTok
  have h1 : ¬ Token.byteLen (q :: (b ++ [q])) < 2 := by
    have := Char.utf8Size_pos q
    rw [show q :: (b ++ [q]) = [q] ++ b ++ [q] by simp, byteLen_append, byteLen_append]
    simp only [Token.byteLen]
    omega
  rw [if_neg h1]
  simp [List.getLast?_cons, List.getLast?_append]

theorem string_cls {l : Str} (h : StringText l) : gcls l = STR := by
  obtain ⟨q, b, hq, hl⟩ := h
  apply gcls_string
  unfold Token.isString
  rw [Bool.or_eq_true]
  rcases hq with rfl | rfl
  · exact .inr (quotedBy_of hl)
  · exact .inl (quotedBy_of hl)

theorem mem_kwMask {ks : List Kw} {k : Kw} (h : k ∈ ks) : (kwMask ks).testBit k.ctorIdx = true := by
  rw [testBit_kwMask]; exact ⟨k, h, rfl⟩

theorem bit_self (n : Nat) : (bit n).testBit n = true := by rw [testBit_bit]; simp

theorem kw_map_upper (k : Kw) : k.lit.map Char.toUpper = k.lit := by
  have h : ∀ k ∈ Kw.all, k.lit.map Char.toUpper = k.lit := by decide +kernel
  exact h k (mem_kw_all k)

/-- A matching literal is in the class of the terminal symbol. -/
theorem term_sound {a : Term} {l : Str} (hs : symOk (.t a) = true) (h : TermMatches a l) :
    (tmask a).testBit (gcls l) = true := by
  have hq : BackQuoted l → gcls l = QID := fun ⟨b, hb⟩ => gcls_quoted (quotedBy_of hb)
  cases a with
  | kw k => rw [gcls_isWord h]; exact bit_self _
  | word s =>
    have h : l.map Char.toUpper = s := h
    simp only [symOk, Bool.and_eq_true] at hs
    have hw : isWordLit l = true := by
      rw [← isWordLit_upper, h]
      cases s with
      | nil => simp at hs
      | cons c cs => exact hs.1.2
    rcases gcls_word hw with ⟨h1, _⟩ | ⟨k, _, _, h3⟩
    · rw [h1]; exact bit_self _
    · have := List.all_eq_true.1 hs.1.1 k (mem_kw_all k)
      rw [← h, h3] at this
      simp at this
  | ident =>
    rcases h with h | ⟨h1, h2⟩
    · rw [hq h]; decide
    · rcases gcls_word ((isWordLit_iff l).2 h1) with ⟨h3, _⟩ | ⟨k, _, _, h3⟩
      · rw [h3]; decide
      · exact absurd h3 (h2 k)
  | name =>
    simp only [tmask, Nat.testBit_or, Bool.or_eq_true]
    rcases h with h | ⟨h1, h2⟩
    · rw [hq h]; exact .inl (.inr (by decide))
    · rcases gcls_word ((isWordLit_iff l).2 h1) with ⟨h3, _⟩ | ⟨k, _, h4, h3⟩
      · rw [h3]; exact .inl (.inl (by decide))
      · rw [h4]; exact .inr (mem_kwMask (h2 k h3))
  | anyWord =>
    simp only [tmask, Nat.testBit_or, Bool.or_eq_true]
    rcases h with h | h1
    · rw [hq h]; exact .inl (.inr (by decide))
    · rcases gcls_word ((isWordLit_iff l).2 h1) with ⟨h3, _⟩ | ⟨k, h5, h4, _⟩
      · rw [h3]; exact .inl (.inl (by decide))
      · rw [h4]; exact .inr (mem_kwMask h5)
  | number =>
    rw [gcls_numeric ((isNumeric_iff (litTok l)).2 h)]; decide
  | string =>
    rw [string_cls h]; decide
  | param =>
    rcases h with ⟨r, rfl⟩ | rfl
    · have := map_upper_head (l := '@' :: r) rfl (.inr (.inr (.inr rfl)))
      have h2 : gcls ('@' :: r) = PAR := by
        unfold gcls
        rw [if_neg (by simp), if_neg (by simpa using this), if_neg ?_, if_neg ?_, if_neg ?_, if_pos (by simp)]
        · intro h
          obtain ⟨c, r', hr, hc⟩ := numeric_head h
          cases hr
          rcases hc with hc | hc
          · exact absurd hc (by decide)
          · exact absurd hc (by decide)
        · unfold Token.isString
          rw [Bool.or_eq_true]
          rintro (h | h) <;> (obtain ⟨r, hr⟩ := quotedBy_head h; simp at hr)
        · intro h
          obtain ⟨r, hr⟩ := quotedBy_head h
          simp at hr
      rw [h2]
      decide
    · decide

/-- Right tables. -/
theorem TOk_of {G : Tables} (h : tablesOk G = true) : TOk G := by
  intro n r hr
  unfold tablesOk at h
  have := List.all_eq_true.1 h n (mem_nt_all n)
  simp only [Bool.and_eq_true] at this
  exact List.all_eq_true.1 this.1.2 r hr

/-- The classes of the tokens of a phrase are described by its symbols. -/
theorem derives_sound {G : Tables} (h : tablesOk G = true) {X : List Sym} {u : List Str} (hd : Derives X u) :
    (∀ s ∈ X, symOk s = true) → M G (X.map conv) (u.map gcls) := by
  induction hd with
  | nil => intro _; exact .nil
  | @term a l X u hm _ ih =>
    intro hs
    exact .T (term_sound (hs _ (by simp)) hm) (gcls_lt l) (ih fun s h => hs s (by simp [h]))
  | @rule n r X u v hr _ _ ih1 ih2 =>
    intro hs
    have h1 := List.all_eq_true.1 h n (mem_nt_all n)
    simp only [Bool.and_eq_true] at h1
    have h2 := prodsEq_eq h1.1.1
    have h3 := ih1 (fun s hsr => List.all_eq_true.1 (List.all_eq_true.1 h1.2 r hr) s hsr)
    rw [List.map_append]
    refine .N (r := r.map conv) ?_ h3 (HeadIn.all ?_) (ih2 fun s h => hs s (by simp [h]))
    · rw [← h2]; exact List.mem_map.2 ⟨r, hr, rfl⟩
    · exact M_lt h3

theorem touch_sym : ∀ k ∈ Kw.all, (isWordLit k.lit || Nat.beq k.ctorIdx Kw.sym_pipe.ctorIdx ||
    touchM.testBit k.ctorIdx) = true := by decide +kernel

theorem mayTouch_cls {l : Str} (h : MayTouch l) : touchM.testBit (gcls l) = true := by
  rcases h with h | ⟨k, h1, h2, h3⟩
  · rw [string_cls h]; decide +kernel
  · have hk := touch_sym k (mem_kw_all k)
    rw [gcls_isWord (k := k) (by unfold IsWord; rw [h1]; exact kw_map_upper k)]
    simp only [Bool.or_eq_true] at hk
    rcases hk with (hk | hk) | hk
    · rw [← h1] at hk; exact absurd ((isWordLit_iff l).1 hk) h3
    · exact absurd (kw_inj (Nat.eq_of_beq_eq_true hk)) h2
    · exact hk

/-- Neighbours in the list without comments. -/
theorem filter_succ {toks : List Token} {n : Nat} {a b : Token} (ha : (toks.filter nc)[n]? = some a)
    (hb : (toks.filter nc)[n + 1]? = some b) :
    ∃ i j, OnlyCommentsBetween toks i j ∧ toks[i]? = some a ∧ toks[j]? = some b := by
  have key : ∀ (ts : List Token) (m : Nat) (t : Token), (ts.filter nc)[m]? = some t →
      ∃ i, ts[i]? = some t ∧ nth ts i = m ∧ t.isComment = false := by
    intro ts
    induction ts with
    | nil => intro m t h; simp at h
    | cons x ts ih =>
      intro m t h
      by_cases hx : x.isComment = true
      · rw [List.filter_cons_of_neg (by simp [nc, hx])] at h
        obtain ⟨i, h1, h2, h3⟩ := ih m t h
        exact ⟨i + 1, by simpa using h1, by simpa [nth, nc, hx] using h2, h3⟩
      · have hx' : x.isComment = false := by simpa using hx
        rw [List.filter_cons_of_pos (by simp [nc, hx'])] at h
        cases m with
        | zero => simp at h; subst h; exact ⟨0, by simp, by simp [nth], hx'⟩
        | succ m =>
          obtain ⟨i, h1, h2, h3⟩ := ih m t (by simpa using h)
          exact ⟨i + 1, by simpa using h1, by simpa [nth, nc, hx'] using h2, h3⟩
  obtain ⟨i, hi, hi', hic⟩ := key toks n a ha
  obtain ⟨j, hj, hj', hjc⟩ := key toks (n + 1) b hb
  refine ⟨i, j, ⟨?_, ?_⟩, hi, hj⟩
  · by_contra hc
    have := nth_mono toks (Nat.le_of_not_lt hc)
    omega
  · intro k t h1 h2 ht
    by_contra hc
    have hc : t.isComment = false := by simpa using hc
    have e1 := nth_succ hi hic
    have e2 := nth_succ ht hc
    have e3 := nth_mono toks (show i + 1 ≤ k by omega)
    have e4 := nth_mono toks (show k + 1 ≤ j by omega)
    omega

/-- The tokens of a text without comments are as the proof needs them. -/
theorem tokOk_of {body : List Token} {e : Token} (he : e.literal = []) (hne : ∀ t ∈ body, t.literal ≠ [])
    (hec : e.isComment = false) (ha : WordsApart (body ++ [e])) : TokOk ((body ++ [e]).filter nc) where
  last := by
    refine ⟨body.filter nc, e, ?_, fun t ht => ⟨by simpa [nc] using (List.mem_filter.1 ht).2, hne t (List.mem_filter.1 ht).1⟩,
      .inl ⟨hec, he⟩⟩
    simp [List.filter_append, nc, hec]
  apart := by
    intro n a b h1 h2 hw hm
    obtain ⟨i, j, h3, h4, h5⟩ := filter_succ h1 h2
    by_contra hc
    have ht : Touches a b := by
      have : Interp.adjacentToks a b = true := by simpa using hc
      simpa [Interp.adjacentToks, Touches] using this
    rcases ha i j a b h3 h4 h5 ((isWordLit_iff _).1 hw) ht with h | h
    · have := (List.mem_filter.1 (List.mem_of_getElem? h2)).2
      simp [nc, h] at this
    · rw [mayTouch_cls h] at hm; simp at hm

/-- What the summaries of `parse_statement` say, and what the tables must say about scripts. -/
structure TopOk (G : Tables) (tab : Fn → List Entry) where
  last : Entry
  more : Entry
  last_mem : last ∈ tab .parse_statement
  more_mem : more ∈ tab .parse_statement
  last_args : last.args = [some (.bool true)]
  more_args : more.args = [some (.bool true)]
  last_pre : last.pre = [.N .Statement ALL]
  more_pre : more.pre = [.N .Step ALL, .T (bit Kw.sym_semi.ctorIdx)]
  last_follow : last.follow.testBit EOFC = true
  more_follow : Mask.le (G.first .Statement ||| G.first .Step ||| bit EOFC) more.follow = true
  last_post : last.post = [[.T ALL]]
  more_post : more.post = [[.T (bit Kw.sym_semi.ctorIdx)]]
  nonnull : G.nullable .Statement = false
  nonnull' : G.nullable .Step = false

/-- The summary of `parse_statement` for complete statements. -/
structure PlainOk (G : Tables) (tab : Fn → List Entry) where
  e : Entry
  mem : e ∈ tab .parse_statement
  args : e.args = [some (.bool true)]
  pre : e.pre = [.N .PlainStep ALL, .T (bit Kw.sym_semi.ctorIdx)]
  follow : e.follow = 0
  post : e.post = [[.T (bit Kw.sym_semi.ctorIdx)]]

section
variable {G : Tables} (hT : tablesOk G = true) {U : Unicode} (hU : U.Lawful) {toks : List Token} (ok : TokOk toks)
  {tab : Fn → List Entry} (top : TopOk G tab)
  (hE : ∀ f, ∀ e ∈ tab f, checkEntry G tab (Program.defs f) e = true)
include hT hU ok top hE

/-- The loop over the statements. -/
theorem parseLoop_good (fuel depth : Nat) : ∀ (n : Nat) (ps : PS) (stmts : List Node) (k : Nat) (ls : List Str),
    IsScript k ls → (∀ l ∈ ls, l ≠ []) → view toks ps.pos = ls.map gcls ++ [EOFC] →
      Good (fun ns => ns.length = stmts.length + k + 1) (parseLoop U toks fuel depth n ps stmts)
  | 0, _, _, _, _, _, _, _ => trivial
  | n + 1, ps, stmts, k, ls, hs, hl, hv => by
    have hG := TOk_of hT
    have hst : ∀ {nt : NT} {s : List Str}, Derives [.nt nt] s → M G [.N nt ALL] (s.map gcls) := fun h =>
      derives_sound hT h (by simp [symOk])
    have hne' : ∀ {nt : NT} {s : List Str}, G.nullable nt = false → Derives [.nt nt] s → s ≠ [] := by
      rintro nt s hnn hd rfl
      have := (first_sound hG (hst hd)).1 rfl
      simp [nonempty, hnn] at this
    have hcall : ∀ e ∈ tab .parse_statement, EntryOk G U toks (call U toks fuel depth) .parse_statement e :=
      fun e he => callN_sound hG hU ok fuel hE depth _ e he
    have harg : List.Forall₂ (ORel U) [some (.bool true)] [Val.bool true] := .cons rfl .nil
    have heof : ls ≠ [] → isEof toks ps 0 = false := by
      intro hn
      cases ls with
      | nil => exact absurd rfl hn
      | cons l ls =>
        obtain ⟨t, ht, hnc, htc⟩ := view_get ok (k := 0) (c := gcls l) (by rw [hv]; rfl)
        rw [isEof_at ok ht hnc, htc]
        simp only [decide_eq_false_iff_not, gcls_eof]
        exact hl l (by simp)
    have hfirst : ∀ {k : Nat} {ls : List Str}, IsScript k ls →
        HeadIn (G.first .Statement ||| G.first .Step ||| bit EOFC) (ls.map gcls ++ [EOFC]) := by
      have h1 : ∀ {nt : NT} {s : List Str} (w : List Nat), G.nullable nt = false → Derives [.nt nt] s →
          HeadIn (G.first nt) (s.map gcls ++ w) := by
        intro nt s w hnn hd
        obtain ⟨r, v, w', h1, h2, h3, _, h5⟩ := M_N (hst hd)
        rw [M_nil h5, List.append_nil] at h1
        have h6 := (N_first hG h2 h3).1
        rw [← h1] at h6
        cases hsm : s.map gcls with
        | nil => exact absurd (List.map_eq_nil_iff.1 hsm) (hne' hnn hd)
        | cons c u => rw [hsm] at h6; exact h6
      intro k ls hs
      cases hs with
      | nil => exact HeadIn.right (u := [EOFC]) (bit_self EOFC)
      | last h => exact HeadIn.left (HeadIn.left (h1 _ top.nonnull h))
      | cons h _ =>
        rw [List.map_append, List.append_assoc]
        exact HeadIn.left (HeadIn.right (h1 _ top.nonnull' h))
    simp only [parseLoop]
    cases hs with
    | nil =>
      obtain ⟨t, ht, hnc, htc⟩ := view_get ok (k := 0) (c := EOFC) (by rw [hv]; rfl)
      rw [isEof_at ok ht hnc, htc]
      simp only [decide_true, if_true]
      have hsim : Sim G U toks [EOFC] ⟨[], [], ALL⟩ ⟨ps, fun _ => .unit⟩ :=
        ⟨fun x v h => by simp [GS.look] at h, ⟨[], by simpa using hv, .nil⟩, .of_head (testBit_ALL (by decide))⟩
      refine (construct_good ok hsim hG .EOF (by rfl)).bind fun nd _ => ?_
      show (stmts ++ [nd]).length = _
      simp
    | last h =>
      rw [heof (hne' top.nonnull h)]
      simp only [Bool.false_eq_true, if_false]
      have h1 := hcall top.last top.last_mem [.bool true] ps (ls.map gcls) [EOFC] (by rw [top.last_args]; exact harg) hv
        (by rw [top.last_pre]; exact hst h) (.of_head top.last_follow)
      cases hx : call U toks fuel depth .parse_statement [.bool true] ps with
      | ok y =>
        obtain ⟨v, ps'⟩ := y
        rw [hx] at h1
        obtain ⟨p, hp, u', h2, h3⟩ := h1
        rw [top.last_post, List.mem_singleton] at hp
        subst hp
        obtain ⟨c, w, rfl, _, _, h4⟩ := M_T h3
        rw [M_nil h4] at h2
        cases v with
        | node nd =>
          obtain ⟨ps'', h5, h6⟩ := next_at ok h2
          simp only [h5]
          have h7 := parseLoop_good fuel depth n ps'' (stmts ++ [nd]) 0 [] .nil (by simp)
            (by rw [h6, view_succ ok h2]; rfl)
          refine h7.imp fun ns hns => ?_
          simp at hns ⊢
          omega
        | _ => exact stuck_good
      | err e => rw [hx] at h1; exact h1
      | panic p => rw [hx] at h1; exact h1
      | timeout => trivial
    | @cons k s rest h hr =>
      rw [heof (by simp)]
      simp only [Bool.false_eq_true, if_false]
      have h1 := hcall top.more top.more_mem [.bool true] ps (s.map gcls ++ [gcls ";".toList]) (rest.map gcls ++ [EOFC])
        (by rw [top.more_args]; exact harg) (by rw [hv]; simp)
        (by
          rw [top.more_pre]
          refine M_append (X := [_]) (Y := [_]) (hst h) (.T ?_ (gcls_lt _) .nil)
          rw [show gcls ";".toList = Kw.sym_semi.ctorIdx by decide +kernel]
          exact bit_self _)
        (.inr ⟨by simp, HeadIn.le (hfirst hr) top.more_follow⟩)
      cases hx : call U toks fuel depth .parse_statement [.bool true] ps with
      | ok y =>
        obtain ⟨v, ps'⟩ := y
        rw [hx] at h1
        obtain ⟨p, hp, u', h2, h3⟩ := h1
        rw [top.more_post, List.mem_singleton] at hp
        subst hp
        obtain ⟨c, w, rfl, _, _, h4⟩ := M_T h3
        rw [M_nil h4] at h2
        cases v with
        | node nd =>
          obtain ⟨d, w', hw⟩ : ∃ d w', rest.map gcls ++ [EOFC] = d :: w' := by
            cases rest <;> simp
          obtain ⟨ps'', h5, h6⟩ := next_at ok (c := c) (d := d) (w := w') (by rw [h2, hw]; rfl)
          simp only [h5]
          have h7 := parseLoop_good fuel depth n ps'' (stmts ++ [nd]) k rest hr (fun l h => hl l (by simp [h]))
            (by rw [h6]; exact view_succ ok (c := c) h2)
          refine h7.imp fun ns hns => ?_
          simp at hns ⊢
          omega
        | _ => exact stuck_good
      | err e => rw [hx] at h1; exact h1
      | panic p => rw [hx] at h1; exact h1
      | timeout => trivial
end

/-- A script is accepted. -/
theorem accept_sound {G : Tables} (hT : tablesOk G = true) {U : Unicode} (hU : U.Lawful)
    {tab : Fn → List Entry} (top : TopOk G tab)
    (hE : ∀ f, ∀ e ∈ tab f, checkEntry G tab (Program.defs f) e = true)
    {code : Str} {toks : List Token} (ht : tokenize U code = .ok toks) (ha : WordsApart toks) {n : Nat}
    (hs : IsScript n (significant toks)) : ∃ ns, parse U code = .ok ns ∧ ns.length = n + 1 := by
  obtain ⟨body, hb, hne⟩ := Props.C03_eof_token_last U code toks ht
  change toks = body ++ [Token.eof] at hb
  subst hb
  have hec : Token.eof.isComment = false := by decide
  have ok := tokOk_of rfl hne hec ha
  have hsig : significant (body ++ [Token.eof]) = (body.filter nc).map Token.literal := by
    unfold significant
    rw [List.filter_append]
    rw [show [Token.eof].filter (fun t => !t.isComment && !t.literal.isEmpty) = [] by decide,
      List.append_nil]
    congr 1
    apply List.filter_congr
    intro t ht
    have := hne t ht
    cases hl : t.literal with
    | nil => exact absurd hl this
    | cons c cs => simp [nc]
  have hfil : (body ++ [Token.eof]).filter nc = body.filter nc ++ [Token.eof] := by
    rw [List.filter_append, show [Token.eof].filter nc = [Token.eof] by decide]
  have hgood : Good (fun ns => ns.length = n + 1) (parseTokens U ((body ++ [Token.eof]).filter nc)) := by
    unfold parseTokens parseTokensWith
    have hnew : ∃ ps, Core.new ((body ++ [Token.eof]).filter nc) = .ok ps ∧ ps.pos = 0 := by
      have hl0 : Core.leadingComments ((body ++ [Token.eof]).filter nc) = 0 := by
        have : ∀ ts : List Token, Core.leadingComments (ts.filter nc) = 0 := by
          intro ts
          induction ts with
          | nil => rfl
          | cons t ts ih =>
            by_cases ht : t.isComment = true
            · rw [List.filter_cons_of_neg (by simp [nc, ht])]; exact ih
            · rw [List.filter_cons_of_pos (by simp [nc, ht])]; simp [Core.leadingComments, ht]
        exact this _
      unfold Core.new
      simp only [hl0]
      rw [hfil]
      cases body.filter nc with
      | nil => exact ⟨_, rfl, rfl⟩
      | cons t ts =>
        simp only [List.cons_append, List.getElem?_cons_zero]
        split <;> exact ⟨_, rfl, rfl⟩
    obtain ⟨ps, h1, h2⟩ := hnew
    rw [h1]
    have h3 := parseLoop_good hT hU ok top hE
      (((body ++ [Token.eof]).filter nc).length + 1)
      (4 * ((body ++ [Token.eof]).filter nc).length)
      (((body ++ [Token.eof]).filter nc).length + 1) ps [] n _ hs
      (by
        rw [hsig]
        intro l hl
        obtain ⟨t, ht, rfl⟩ := List.mem_map.1 hl
        exact hne t (List.mem_filter.1 ht).1)
      (by
        rw [h2, hsig, hfil]
        unfold view
        have h5 : (body.filter nc).filter ncb = body.filter nc := by
          rw [List.filter_eq_self]
          intro t ht
          exact (List.mem_filter.1 ht).2
        rw [List.drop_zero, List.filter_append, h5, show [Token.eof].filter ncb = [Token.eof] by decide]
        simp [Function.comp_def, show gcls Token.eof.literal = EOFC from rfl])
    refine h3.imp fun ns hns => ?_
    simpa using hns
  have hlast : (body ++ [Token.eof]).getLast? = some Token.eof := by simp
  have hrel := strip_parse hlast hec U
  have hp : parse U code = parseTokens U (body ++ [Token.eof]) := by
    unfold parse; rw [ht]; rfl
  have hnt := Props.C12_parse_terminates U code
  have hnt' : parseTokens U ((body ++ [Token.eof]).filter nc) ≠ .timeout :=
    parseTokensWith_ne_timeout U _ _ _ (by omega) (by omega)
  cases hx : parse U code with
  | ok ns =>
    refine ⟨ns, rfl, ?_⟩
    rw [← hp, hx] at hrel
    cases hy : parseTokens U ((body ++ [Token.eof]).filter nc) with
    | ok ns' =>
      rw [hy] at hrel hgood
      have : ns' = ns.map stripComments := hrel
      have hg : ns'.length = n + 1 := hgood
      rw [this] at hg
      simpa using hg
    | timeout => exact absurd hy hnt'
    | err e => rw [hy] at hgood; exact hgood.elim
    | panic p => rw [hy] at hrel; exact hrel.elim
  | err e =>
    rw [← hp, hx] at hrel
    cases hy : parseTokens U ((body ++ [Token.eof]).filter nc) with
    | ok ns' => rw [hy] at hrel; exact hrel.elim
    | timeout => exact absurd hy hnt'
    | err e => rw [hy] at hgood; exact hgood.elim
    | panic p => rw [hy] at hrel; exact hrel.elim
  | panic p =>
    have hc := Props.C17_parse_panics U hU code p hx
    rw [← hp, hx] at hrel
    cases hy : parseTokens U ((body ++ [Token.eof]).filter nc) with
    | ok ns' => rw [hy] at hrel; exact hrel.elim
    | timeout => exact absurd hy hnt'
    | err e => rw [hy] at hgood; exact hgood.elim
    | panic q =>
      rw [hy] at hrel hgood
      have : p = q := hrel
      subst this
      rcases hc with hc | ⟨hc, _⟩
      · rw [ht] at hc; cases hc
      · exact absurd hc hgood
  | timeout => exact absurd hx hnt

end Verif.GI
