import Verif.Proofs.ExprTop
import Verif.Analysis.BlockCheck
/-! Statements with statements in them give their trees. -/
namespace Verif.Sym
open Core Interp Spec
open Slow (StandAt)

/-- A word stands at `q`. -/
def WordAt (U : Unicode) (T : List Token) (q : Nat) (l : Str) : Prop := ∃ t, T[q]? = some t ∧ LitOk U t l

theorem StandAt.tail {T : List Token} {q : Nat} {l : Str} {r : List Str} (h : StandAt T q (l :: r)) : StandAt T (q + 1) r :=
  StandAt.right (a := [l]) h

theorem wordAt_of {U : Unicode} (hU : U.Lawful) {T : List Token} {q : Nat} {l : Str} {r : List Str} (h : StandAt T q (l :: r))
    (hv : l ∈ vocab) : WordAt U T q l := by
  obtain ⟨t, h1, h2⟩ := h 0 l rfl
  exact ⟨t, h1, litOk_of hU h2 hv⟩

theorem WordAt.follow {U : Unicode} {T : List Token} {q : Nat} {l : Str} (h : WordAt U T q l) (hm : q + 1 < T.length)
    (hp : (Base.lit l).prec = some loosest) : Follow U T q (.lit l) loosest := by
  obtain ⟨t, h1, h2⟩ := h
  exact ⟨⟨t, h1, h2⟩, hm, hp⟩

theorem WordAt.cell {U : Unicode} {T : List Token} {q : Nat} {l : Str} (h : WordAt U T q l) {g : Option Gap} :
    CellOk U T ⟨[.lit l], g⟩ q := by
  obtain ⟨t, h1, h2⟩ := h
  exact fun _ => ⟨t, h1, _, List.mem_singleton.2 rfl, h2⟩

theorem name_at {U : Unicode} (hU : U.Lawful) {T : List Token} {q : Nat} {l : Str} {r : List Str} (h : AtomIs U l .Identifier)
    (hs : StandAt T q (l :: r)) : ∃ t, T[q]? = some t ∧ OtherOk U t .Identifier := by
  obtain ⟨t, h1, h2⟩ := hs 0 l rfl
  refine ⟨t, h1, ?_⟩
  have hb := atom_base hU (T := T) (q := q) h h2
  have he : atomBase l .Identifier = .other .Identifier := by
    cases h
    rfl
  rw [he] at hb
  exact hb

theorem name_cell {U : Unicode} {T : List Token} {q : Nat} {g : Option Gap} (h : ∃ t, T[q]? = some t ∧ OtherOk U t .Identifier) :
    CellOk U T ⟨[.other .Identifier], g⟩ q := by
  obtain ⟨t, h1, h2⟩ := h
  exact fun _ => ⟨t, h1, _, List.mem_singleton.2 rfl, h2⟩

theorem bare_ok {U : Unicode} {T : List Token} {q : Nat} : CellOk U T bare q := fun h => absurd rfl h

theorem words_vocab : ∀ l ∈ blockHeads, l ∈ vocab := by decide +kernel

theorem for_facts {s : Shape} (h : s ∈ fors) : itemsOk s.items = true ∧ formOk s.items.length s.node = true ∧ noEnd s.items = true ∧
    ∃ is, s.items = .tok "FOR".toList :: .name :: is ∧ 1 ≤ toks is := by
  have := forShapes_ok s h
  simp only [Bool.and_eq_true] at this
  obtain ⟨⟨⟨h1, h2⟩, h3⟩, h4⟩ := this
  refine ⟨h1, h2, h3, ?_⟩
  split at h4
  · rename_i l is he
    simp only [Bool.and_eq_true, beq_iff_eq, decide_eq_true_eq] at h4
    exact ⟨is, by rw [he, h4.1], h4.2⟩
  · cases h4

/-- The call for a statement. -/
def BlockCall (U : Unicode) (T : List Token) (fuel : Nat) (b : Block) : Prop :=
  ∀ q, b.Ok U → StandAt T q b.words → q + b.words.length < T.length → ∀ N, 4 * b.words.length ≤ N →
    callN U Program.defs T fuel N .parse_statement [.bool true] ⟨q, [], []⟩ =
      .ok (.node (b.tree T q), ⟨q + b.words.length - 1, [], []⟩)

/-- The calls for statements. -/
def BlocksGood (U : Unicode) (T : List Token) (fuel : Nat) : Blocks → Prop
  | .nil => True
  | .cons b bs => BlockCall U T fuel b ∧ BlocksGood U T fuel bs

/-- The calls for branches. -/
def BranchesGood (U : Unicode) (T : List Token) (fuel : Nat) : Branches → Prop
  | .nil => True
  | .cons _ b br => BlocksGood U T fuel b ∧ BranchesGood U T fuel br

theorem label_head {U : Unicode} {n : Label} {l : Str} {r : List Str} (h : n.Ok U) (hl : l ∈ blockHeads) :
    ∃ l' r', n.before ++ l :: r = l' :: r' ∧ (l' ∈ blockHeads ∨ AtomIs U l' .Identifier) := by
  cases n with
  | none => exact ⟨l, r, rfl, .inl hl⟩
  | lead a => exact ⟨a, _, rfl, .inr h⟩
  | both a m => exact ⟨a, _, rfl, .inr h.1⟩

theorem block_head {U : Unicode} : ∀ {b : Block}, b.Ok U → ∃ l r, b.words = l :: r ∧ (l ∈ blockHeads ∨ AtomIs U l .Identifier)
  | .stmt s, h => by
    obtain ⟨_, _, _, _, l, is, he, hl⟩ := stmt_facts (show _ ∧ _ from h).1
    refine ⟨l, weave is s.args.words ++ [";".toList], ?_, .inl (List.mem_cons_of_mem _ (List.mem_cons_of_mem _ hl))⟩
    show weave s.shape.items s.args.words ++ _ = _
    rw [he]
    rfl
  | .loop n b, h => by rw [Block.words]; exact label_head (show _ ∧ _ from h).1 (by decide)
  | .rep n b e, h => by rw [Block.words]; exact label_head (show _ ∧ _ from h).1 (by decide)
  | .while n e b, h => by rw [Block.words]; exact label_head (show _ ∧ _ from h).1 (by decide)
  | .begin b, _ => ⟨_, _, by rw [Block.words], .inl (by decide)⟩
  | .catch b h, _ => ⟨_, _, by rw [Block.words], .inl (by decide)⟩
  | .if e b br, _ => ⟨_, _, by rw [Block.words], .inl (by decide)⟩
  | .ifElse e b br c, _ => ⟨_, _, by rw [Block.words], .inl (by decide)⟩
  | .case e br, _ => ⟨_, _, by rw [Block.words], .inl (by decide)⟩
  | .caseElse e br c, _ => ⟨_, _, by rw [Block.words], .inl (by decide)⟩
  | .for s as b, h => by
    obtain ⟨_, _, _, is, he, _⟩ := for_facts (show _ ∧ _ from h).1
    refine ⟨"FOR".toList, weave (.name :: is) as.words ++ "DO".toList :: (b.words ++ ["END".toList, "FOR".toList, ";".toList]), ?_,
      .inl (by decide)⟩
    rw [Block.words, he]
    rfl

/-- The loop over statements in `parse_keyword_with_statements` and `parse_begin_statement`. -/
def stmtLoop (c : Cond) : Cmd := .ite (.not c) (.seq .next (.append v_stmts (.call .parse_statement [.bool true]))) .brk

theorem set_set (env : Env) (x : Var) (a b : Val) : (env.set x a).set x b = env.set x b := by
  funext y
  unfold Env.set
  split <;> rfl

section
variable {U : Unicode} (hU : U.Lawful) {T : List Token} (hnc : ∀ t ∈ T, t.isComment = false) (hA : Lex.Apart T) {fuel : Nat}
  (hF : T.length + 1 ≤ fuel)

include hnc in
theorem getToken_next {j : Nat} {t : Token} (h : T[j + 1]? = some t) : getToken T ⟨j, [], []⟩ 1 = .ok t := by
  have hj := (List.getElem?_eq_some_iff.1 h).1
  unfold getToken getOffsetIndex
  rw [if_neg (by omega), List.drop_eq_getElem_cons hj]
  have hn := hnc T[j + 1] (List.getElem_mem hj)
  simp [scanFrom, hn, tokAt, h]

omit hnc in
theorem construct_leaf {q : Nat} (h : q < T.length) {ty : NodeType} (hty : ty ≠ .EOF ∧ ty ≠ .Unknown) :
    construct U T ⟨q, [], []⟩ ty = .ok (leaf T ty q) := by
  have ht : T[q]? = some T[q] := List.getElem?_eq_getElem h
  have hd : T.getD q Token.eof = T[q] := by rw [List.getD_eq_getElem?_getD, ht]; rfl
  unfold construct getToken
  rw [show getOffsetIndex T ⟨q, [], []⟩ 0 = .ok q from rfl]
  simp only [tokAt, ht, leaf, tokenAt]
  rw [if_neg hty.1, if_neg hty.2, hd]
  exact Cut.attach_nil _ _ _

include hU hnc in
theorem loop_stmts {c : Cond} {ks : List Kw} {env : Env} {N : Nat}
    (hc : ∀ j acc t, T[j + 1]? = some t →
      evalCond (cx U T fuel N) ⟨⟨j, [], []⟩, env.set v_stmts (.vec acc)⟩ c = .ok (t.inKws U ks))
    (hks : blockHeads.all (fun l => !(tk l).inKws U0 ks) = true) :
    ∀ (bs : Blocks) (j n : Nat) (acc : List Node) (l : Str), BlocksGood U T fuel bs → bs.Ok U → StandAt T (j + 1) bs.words →
      WordAt U T (j + 1 + bs.words.length) l → (tk l).inKws U0 ks = true → 4 * bs.words.length ≤ N →
      bs.words.length + 1 ≤ n →
      iterate (exec (cx U T fuel N) (stmtLoop c)) n ⟨⟨j, [], []⟩, env.set v_stmts (.vec acc)⟩ =
        .ok (.norm, ⟨⟨j + bs.words.length, [], []⟩, env.set v_stmts (.vec (acc ++ bs.trees T (j + 1)))⟩)
  | .nil, j, n, acc, l, _, _, _, hw, hl, _, hn => by
    obtain ⟨t, h1, h2⟩ := hw
    obtain ⟨n, rfl⟩ : ∃ m, n = m + 1 := ⟨n - 1, by omega⟩
    have hcond := hc j acc t h1
    rw [h2.inKws, hl] at hcond
    simp [iterate, stmtLoop, exec, evalCond, hcond, Blocks.trees, Blocks.words]
  | .cons b bs, j, n, acc, l, hg, hok, hs, hw, hl, hN, hn => by
    simp only [Blocks.words, List.length_append] at hs hw hN hn ⊢
    obtain ⟨n, rfl⟩ : ∃ m, n = m + 1 := ⟨n - 1, by omega⟩
    obtain ⟨h, r, hh, hmem⟩ := block_head hok.1
    have hs1 : StandAt T (j + 1) b.words := StandAt.left hs
    obtain ⟨t, h1, h2⟩ : ∃ t, T[j + 1]? = some t ∧ t.inKws U ks = false := by
      rcases hmem with hmem | hmem
      · obtain ⟨t, h1, h2⟩ := wordAt_of hU (hh ▸ hs1) (words_vocab h hmem)
        refine ⟨t, h1, ?_⟩
        have := List.all_eq_true.1 hks h hmem
        rw [h2.inKws]
        simpa using this
      · obtain ⟨t, h1, h2⟩ := name_at hU hmem (hh ▸ hs1)
        exact ⟨t, h1, h2.inKws ks⟩
    have hlt := (List.getElem?_eq_some_iff.1 h1).1
    obtain ⟨t', h3, _⟩ := hw
    have hlt' := (List.getElem?_eq_some_iff.1 h3).1
    have hcond := hc j acc t h1
    rw [h2] at hcond
    have hwl : 1 ≤ b.words.length := by rw [hh]; simp
    have hcall := hg.1 (j + 1) hok.1 hs1 (by omega) N (by omega)
    have hnext := next_plain hnc hlt
    have hbody : exec (cx U T fuel N) (stmtLoop c) ⟨⟨j, [], []⟩, env.set v_stmts (.vec acc)⟩ =
        .ok (.norm, ⟨⟨j + b.words.length, [], []⟩, env.set v_stmts (.vec (acc ++ [b.tree T (j + 1)]))⟩) := by
      have e1 : j + 1 + b.words.length - 1 = j + b.words.length := by omega
      rw [e1] at hcall
      have hv : (env.set v_stmts (Val.vec acc)) v_stmts = .vec acc := by simp [Env.set]
      simp [stmtLoop, exec, evalCond, hcond, hnext, evalExp, evalAtoms, evalAtom, hcall, hv, set_set]
    rw [iterate_norm hbody]
    have := loop_stmts hc hks bs (j + b.words.length) n (acc ++ [b.tree T (j + 1)]) l hg.2 hok.2
      (by have := StandAt.right hs; rwa [show j + 1 + b.words.length = j + b.words.length + 1 by omega] at this)
      ⟨t', by rw [← h3]; congr 1; omega, ‹_›⟩ hl (by omega) (by omega)
    rw [this]
    simp only [Blocks.trees, List.append_assoc, List.singleton_append]
    rw [show j + b.words.length + bs.words.length = j + (b.words.length + bs.words.length) by omega,
      show j + b.words.length + 1 = j + 1 + b.words.length by omega]

include hU hnc hF in
/-- The call for a word with statements. -/
theorem body_call (bs : Blocks) (hg : BlocksGood U T fuel bs) (hok : bs.Ok U) {q : Nat} (hs : StandAt T (q + 1) bs.words) {l : Str}
    {ks : List Kw} (hw : WordAt U T (q + 1 + bs.words.length) l) (hl : (tk l).inKws U0 ks = true)
    (hks : blockHeads.all (fun l => !(tk l).inKws U0 ks) = true) {N : Nat} (hN : 4 * bs.words.length + 1 ≤ N) :
    callN U Program.defs T fuel N .parse_keyword_with_statements [.kws ks] ⟨q, [], []⟩ =
      .ok (.node (bodyNode T .KeywordWithStatements q (bs.trees T (q + 1))), ⟨q + bs.words.length, [], []⟩) := by
  obtain ⟨N, rfl⟩ : ∃ M, N = M + 1 := ⟨N - 1, by omega⟩
  obtain ⟨t', h3, h4⟩ := hw
  have hlt' := (List.getElem?_eq_some_iff.1 h3).1
  let nd := leaf T .KeywordWithStatements q
  let env : Env := (bindParams [v_until] [.kws ks]).set v_node (.node nd)
  have hcons : construct U T ⟨q, [], []⟩ .KeywordWithStatements = .ok nd := construct_leaf (by omega) (by decide)
  have hloop := loop_stmts hU hnc (c := .upVar (.lit 1) v_until) (ks := ks) (env := env) (N := N) (by
    intro j acc t ht
    have hv : (env.set v_stmts (Val.vec acc)) v_until = .kws ks := rfl
    simp [evalCond, offTok, evalOff, getToken_next hnc ht, hv]) hks bs q fuel [] l hg hok hs ⟨t', h3, h4⟩ hl (by omega) (by omega)
  show runBody (cx U T fuel N) Program.parse_keyword_with_statements _ _ = _
  unfold runBody
  have e1 : exec (cx U T fuel N) (.set v_node (.construct .KeywordWithStatements)) ⟨⟨q, [], []⟩, bindParams [v_until] [.kws ks]⟩ =
      .ok (.norm, ⟨⟨q, [], []⟩, env⟩) := by
    simp only [exec, evalExp, hcons]; rfl
  have e2 : exec (cx U T fuel N) (.set v_stmts .nilVec) ⟨⟨q, [], []⟩, env⟩ =
      .ok (.norm, ⟨⟨q, [], []⟩, env.set v_stmts (.vec [])⟩) := rfl
  have : exec (cx U T fuel N) Program.parse_keyword_with_statements.body ⟨⟨q, [], []⟩, bindParams [v_until] [.kws ks]⟩ =
      .ok (.ret (.node (bodyNode T .KeywordWithStatements q (bs.trees T (q + 1)))),
        ⟨⟨q + bs.words.length, [], []⟩, (env.set v_stmts (.vec (bs.trees T (q + 1)))).set v_node
          (.node (bodyNode T .KeywordWithStatements q (bs.trees T (q + 1))))⟩) := by
    unfold Program.parse_keyword_with_statements
    dsimp only
    rw [seq_of e1, seq_of e2]
    refine (seq_of (a := .loop (stmtLoop (.upVar (.lit 1) v_until))) hloop).trans ?_
    rfl
  rw [show Program.parse_keyword_with_statements.params = [v_until] from rfl, this]


section
variable {H : Nat → Node} {V : Nat → List Node} {D : Nat}

include hU hnc hF in
theorem lay_body {bs : Blocks} (hg : BlocksGood U T fuel bs) (hok : bs.Ok U) {q y x i : Nat} {l l' : Str} {ks : List Kw}
    (hs : StandAt T (q + 1) bs.words) (hq : WordAt U T q l) (hx : x = q + 1 + bs.words.length) (hy : y = q + bs.words.length)
    (hw : WordAt U T x l') (hl : (tk l').inKws U0 ks = true) (hks : blockHeads.all (fun l => !(tk l).inKws U0 ks) = true)
    (hH : H i = bodyNode T .KeywordWithStatements q (bs.trees T (q + 1))) (hD : 4 * bs.words.length + 1 ≤ D)
    {cells : List Cell} {rest : List Nat} (hh : rest.head? = some x) (hL : Lay U T H V fuel D cells rest) :
    Lay U T H V fuel D (⟨[.lit l], some (.body ks i)⟩ :: bare :: cells) (q :: y :: rest) := by
  subst hx hy
  have hlt : q + 1 + bs.words.length < T.length := (List.getElem?_eq_some_iff.1 hw.choose_spec.1).1
  refine lay_gap (w := bs.words.length + 1) hq.cell (by omega) (by omega) ?_ ?_ hL
  · intro N hN
    show callN _ _ _ _ _ _ _ _ = _
    rw [hH]
    exact body_call hU hnc hF bs hg hok hs hw hl hks (by omega)
  · rw [hh]; congr 1; omega

include hU hnc hA hF in
theorem lay_cond {D : Nat} {e : Ex} (hok : e.Ok U loosest) {q y x i : Nat} {l : Str} (hs : StandAt T q e.words) (hw : WordAt U T x l)
    (hx : x = q + e.words.length) (hy : y = q + e.words.length - 1) (hm : x + 1 < T.length)
    (hl : (Base.lit l).prec = some loosest ∧ .lit l ∈ nameNexts) (hH : H i = e.tree T q) (hD : 4 * e.words.length ≤ D)
    {cells : List Cell} {rest : List Nat} (hh : rest.head? = some x) (hL : Lay U T H V fuel D cells rest) :
    Lay U T H V fuel D (⟨firsts, some (.expr loosest (some false) i)⟩ :: bare :: cells) (q :: y :: rest) := by
  subst hx hy
  obtain ⟨t, h1, b, h2, h3, _⟩ := first_of hU e hok hs
  refine lay_gap (fun _ => ⟨t, h1, b, h2, h3⟩) (words_pos e hok) (by omega) ?_ hh hL
  intro N hN a ha
  rw [hH, ha false rfl]
  exact call_of_spine hU hnc hA hF (ex_good hU hnc hA hF e) q loosest loosest _ hs (hw.follow hm hl.1) hl.2
    (closes_loosest e hok) hok (by decide) (Nat.le_refl _) (Nat.le_refl _) N (by omega) false (.inr rfl)
end

/-- The semicolon as a child. -/
def semiNode (T : List Token) (n : Node) (e : Nat) (x : Bool) : Node := if x then n.pushNode .k_semicolon (leaf T .Symbol e) else n

theorem semiTerm_ev {I : Itp} (t : Term) (e : Nat) (x : Bool) :
    ((semiTerm t e x).ev I).1 = if x then ((Term.push t .k_semicolon (.new e .Symbol)).ev I).1 else (t.ev I).1 := by
  cases x <;> rfl

theorem whole {w : Window} {I : Itp} (hV : View w I) {D : Nat} (hF : rounds ≤ fuel) (hL : Lay I.U I.T I.H I.V fuel D w.cells I.pos)
    {N : Nat} (hN : D + 4 ≤ N) {t : Term} {x : Bool} (h : checkWhole w t x = true) :
    callN I.U Program.defs I.T fuel N .parse_statement [.bool x] (I.ps 0) =
      .ok (.node ((semiTerm t (w.cells.length - 1) x).ev I).1, I.ps (w.cells.length - (if x then 1 else 2))) := by
  unfold checkWhole at h
  split at h
  case h_2 => cases h
  rename_i tm i hac
  simp only [Bool.and_eq_true, beq_iff_eq] at h
  obtain ⟨v, g1, g2⟩ := call_sound hV hF (gapOk_of hL) 4 N hN .parse_statement [.bool x] [.bool x] 0 _ ⟨rfl, trivial⟩ hac
  have hv : v = .node ((tm.ev I).1) := g2
  rw [g1, hv, ← h.1, Term.ev_norm, ← h.2]
  simp

/-- The call for a loop without its label and its semicolon. -/
def LoopCall (U : Unicode) (T : List Token) (fuel : Nat) (ws : List Str) (node : Nat → Node) : Prop :=
  ∀ q x, x ∈ loopEnds → StandAt T q ws → CellOk U T ⟨[x.2], none⟩ (q + ws.length) → q + ws.length + 1 < T.length →
    ∀ N, 4 * ws.length ≤ N → callN U Program.defs T fuel N .parse_statement [.bool x.1] ⟨q, [], []⟩ =
      .ok (.node (semiNode T (node q) (q + ws.length) x.1), ⟨q + ws.length - (if x.1 then 0 else 1), [], []⟩)

include hU hnc hA hF

theorem view_win {cs : List Cell} {I : Itp} (hI : I.T = T) (hI' : I.ks = []) {D : Nat}
    (hL : Lay I.U I.T I.H I.V fuel D (win cs).cells I.pos) (hn : I.n = 0) : View (win cs) I :=
  view_of (I := I) (hI ▸ hnc) (hI ▸ hA) hL (fun b h => by cases h) (fun h => by cases h) (by rw [hn]; exact Nat.le_refl _)
    (by rw [hn]; exact Nat.zero_le _) (by rw [hI']; rfl)

theorem call_loop (b : Blocks) (hg : BlocksGood U T fuel b) (hok : b.Ok U) :
    LoopCall U T fuel ("LOOP".toList :: (b.words ++ ["END".toList, "LOOP".toList]))
      (fun q => loopNode T q (b.trees T (q + 1)) (q + 1 + b.words.length)) := by
  intro q e hx hs hend hm N hN
  simp only [List.length_cons, List.length_append, List.length_nil] at hs hend hm hN ⊢
  have s1 := StandAt.tail hs
  have s2 : StandAt T (q + 1 + b.words.length) _ := StandAt.right s1
  have s3 := StandAt.tail s2
  let x := q + 1 + b.words.length
  have hxe : q + (b.words.length + (0 + 1 + 1) + 1) = x + 2 := by omega
  rw [hxe] at hend hm ⊢
  let I : Itp := ⟨U, T, [q, q + b.words.length, x, x + 1, x + 2],
    fun _ => bodyNode T .KeywordWithStatements q (b.trees T (q + 1)), fun _ => [], 0, true, []⟩
  have hL : Lay U T I.H I.V fuel (4 * b.words.length + 1) (wLoop e).cells I.pos := by
    refine lay_body hU hnc hF hg hok (StandAt.left s1) (wordAt_of hU hs (by decide)) rfl rfl (wordAt_of hU s2 (by decide))
      (by decide +kernel) (by decide +kernel) rfl (Nat.le_refl _) rfl ?_
    refine lay_cell (wordAt_of hU s2 (by decide)).cell rfl (by omega) rfl rfl ?_
    refine lay_cell (wordAt_of hU s3 (by decide)).cell rfl (by omega) rfl rfl ?_
    exact lay_last hend rfl (by omega)
  have := whole (view_win hU hnc hA hF (I := I) rfl rfl hL rfl) (by have : rounds = 4 := rfl; omega) hL (N := N) (by omega)
    (blocks_ok.1 e hx).1
  refine this.trans ?_
  rw [semiTerm_ev]
  cases e.1 <;> rfl

theorem call_rep (b : Blocks) (e : Ex) (hg : BlocksGood U T fuel b) (hok : b.Ok U) (he : e.Ok U loosest) :
    LoopCall U T fuel ("REPEAT".toList :: (b.words ++ "UNTIL".toList :: (e.words ++ ["END".toList, "REPEAT".toList])))
      (fun q => repNode T q (b.trees T (q + 1)) (q + 1 + b.words.length) (e.tree T (q + 1 + b.words.length + 1))
        (q + 1 + b.words.length + 1 + e.words.length)) := by
  intro q y hx hs hend hm N hN
  simp only [List.length_cons, List.length_append, List.length_nil] at hs hend hm hN ⊢
  have hep := words_pos e he
  have s1 := StandAt.tail hs
  have s2 : StandAt T (q + 1 + b.words.length) _ := StandAt.right s1
  have s3 := StandAt.tail s2
  have s4 : StandAt T (q + 1 + b.words.length + 1 + e.words.length) _ := StandAt.right s3
  have s5 := StandAt.tail s4
  let u := q + 1 + b.words.length
  let x := u + 1 + e.words.length
  have hxe : q + (b.words.length + (e.words.length + (0 + 1 + 1) + 1) + 1) = x + 2 := by omega
  rw [hxe] at hend hm ⊢
  let I : Itp := ⟨U, T, [q, q + b.words.length, u, u + 1, u + 1 + e.words.length - 1, x, x + 1, x + 2],
    fun i => if i = 1 then bodyNode T .KeywordWithStatements q (b.trees T (q + 1)) else e.tree T (u + 1), fun _ => [], 0, true, []⟩
  have hL : Lay U T I.H I.V fuel (4 * (b.words.length + e.words.length) + 1) (wRep y).cells I.pos := by
    refine lay_body hU hnc hF hg hok (StandAt.left s1) (wordAt_of hU hs (by decide)) rfl rfl (wordAt_of hU s2 (by decide))
      (by decide +kernel) (by decide +kernel) rfl (by omega) rfl ?_
    refine lay_cell (wordAt_of hU s2 (by decide)).cell rfl (by omega) rfl rfl ?_
    refine lay_cond hU hnc hA hF he (StandAt.left s3) (wordAt_of hU s4 (by decide)) rfl ?_ ?_ (by decide +kernel) ?_ ?_ ?_ ?_
    · rfl
    · omega
    · rfl
    · omega
    · rfl
    refine lay_cell (wordAt_of hU s4 (by decide)).cell rfl (by omega) rfl rfl ?_
    refine lay_cell (wordAt_of hU s5 (by decide)).cell rfl (by omega) rfl rfl ?_
    exact lay_last hend rfl (by omega)
  have := whole (view_win hU hnc hA hF (I := I) rfl rfl hL rfl) (by have : rounds = 4 := rfl; omega) hL (N := N) (by omega)
    (blocks_ok.1 y hx).2.1
  refine this.trans ?_
  rw [semiTerm_ev]
  cases y.1 <;> rfl

theorem call_while (e : Ex) (b : Blocks) (hg : BlocksGood U T fuel b) (he : e.Ok U loosest) (hok : b.Ok U) :
    LoopCall U T fuel ("WHILE".toList :: (e.words ++ "DO".toList :: (b.words ++ ["END".toList, "WHILE".toList])))
      (fun q => whileNode T q (e.tree T (q + 1)) (q + 1 + e.words.length) (b.trees T (q + 1 + e.words.length + 1))
        (q + 1 + e.words.length + 1 + b.words.length)) := by
  intro q y hx hs hend hm N hN
  simp only [List.length_cons, List.length_append, List.length_nil] at hs hend hm hN ⊢
  have hep := words_pos e he
  have s1 := StandAt.tail hs
  have s2 : StandAt T (q + 1 + e.words.length) _ := StandAt.right s1
  have s3 := StandAt.tail s2
  have s4 : StandAt T (q + 1 + e.words.length + 1 + b.words.length) _ := StandAt.right s3
  have s5 := StandAt.tail s4
  let d := q + 1 + e.words.length
  let x := d + 1 + b.words.length
  have hxe : q + (e.words.length + (b.words.length + (0 + 1 + 1) + 1) + 1) = x + 2 := by omega
  rw [hxe] at hend hm ⊢
  let I : Itp := ⟨U, T, [q, q + 1, q + 1 + e.words.length - 1, d, d + b.words.length, x, x + 1, x + 2],
    fun i => if i = 1 then e.tree T (q + 1) else bodyNode T .KeywordWithStatements d (b.trees T (d + 1)), fun _ => [], 0, true, []⟩
  have hL : Lay U T I.H I.V fuel (4 * (b.words.length + e.words.length) + 1) (wWhile y).cells I.pos := by
    refine lay_cell (wordAt_of hU hs (by decide)).cell rfl (by omega) rfl rfl ?_
    refine lay_cond hU hnc hA hF he (StandAt.left s1) (wordAt_of hU s2 (by decide)) rfl ?_ ?_ (by decide +kernel) ?_ ?_ ?_ ?_
    · rfl
    · omega
    · rfl
    · omega
    · rfl
    refine lay_body hU hnc hF hg hok (StandAt.left s3) (wordAt_of hU s2 (by decide)) rfl rfl (wordAt_of hU s4 (by decide))
      (by decide +kernel) (by decide +kernel) rfl (by omega) rfl ?_
    refine lay_cell (wordAt_of hU s4 (by decide)).cell rfl (by omega) rfl rfl ?_
    refine lay_cell (wordAt_of hU s5 (by decide)).cell rfl (by omega) rfl rfl ?_
    exact lay_last hend rfl (by omega)
  have := whole (view_win hU hnc hA hF (I := I) rfl rfl hL rfl) (by have : rounds = 4 := rfl; omega) hL (N := N) (by omega)
    (blocks_ok.1 y hx).2.2
  refine this.trans ?_
  rw [semiTerm_ev]
  cases y.1 <;> rfl

omit hU hF in
/-- `parse_statement` leaves the statement to `f`. -/
theorem dispatch {b : Base} {next : List Base} {f : Fn} (hchk : checkCall b next f = true) {q N j : Nat} {n : Node}
    (hq : CellOk U T ⟨[b], none⟩ q) (hn : ∃ t, T[q + 1]? = some t ∧ ∃ b ∈ next, IsBase U T (q + 1) t b) (hm : q + 2 < T.length)
    (hj : j + 1 < T.length) (hF : rounds ≤ fuel)
    (hcall : callN U Program.defs T fuel N f [.bool true] ⟨q, [], []⟩ = .ok (.node n, ⟨j, [], []⟩)) :
    callN U Program.defs T fuel (N + 1) .parse_statement [.bool true] ⟨q, [], []⟩ = .ok (.node n, ⟨j, [], []⟩) := by
  let I : Itp := ⟨U, T, [q, q + 1, j], fun _ => n, fun _ => [], 0, true, []⟩
  have hV : View (wCall b next) I := by
    refine ⟨hnc, hA, ?_, ?_, ?_, (fun b h => by cases h), (fun h => by cases h), Nat.le_refl _, Nat.le_refl _, rfl⟩
    · intro i c hc hb
      match i with
      | 0 => cases hc; exact hq hb
      | 1 => cases hc; exact hn
      | 2 => cases hc; exact absurd rfl hb
      | i + 3 => cases hc
    · intro i c hc hg hi
      match i with
      | 0 => rfl
      | 1 => cases hc; cases hg
      | i + 2 => exact absurd hi (by show ¬ (i + 2 + 1 < 3); omega)
    · intro i hi
      match i with
      | 0 => show q + 1 < T.length; omega
      | 1 => exact hm
      | 2 => exact hj
      | i + 3 => exact absurd hi (by show ¬ (i + 3 < 3); omega)
  have hC : RCall I (oneCall f) (callN U Program.defs T fuel N) := by
    intro g avs vs i r hvs h
    unfold oneCall at h
    split at h
    · rename_i hc
      obtain ⟨rfl, rfl, rfl⟩ := hc
      cases h
      match vs, hvs with
      | [v], hvs =>
        have : v = .bool true := hvs.1
        subst this
        exact ⟨_, hcall, rfl⟩
    · cases h
  unfold checkCall at hchk
  split at hchk
  case h_2 => cases hchk
  rename_i as hae
  obtain ⟨fl, s', k1, k2, k3⟩ := exec_sound (C := cx U T fuel N) hV rfl rfl hC hF Program.parse_statement.body
    (s := ⟨⟨q, [], []⟩, bindParams Program.parse_statement.params [.bool true]⟩) ⟨rfl, bind_sound (avs := [.bool true]) (vs := [.bool true]) _ ⟨rfl, trivial⟩⟩ hae
  cases fl with
  | norm => exact k2.elim
  | brk => exact k2.elim
  | ret v =>
    have hv : v = .node n := k2
    have hp : s'.ps = ⟨j, [], []⟩ := by rw [k3.ps, eq_of_beq hchk]; rfl
    show runBody (cx U T fuel N) Program.parse_statement _ _ = _
    unfold runBody
    rw [k1]
    simp only [hv, hp]

end

/-- Commands are evaluated rightly. -/
theorem run {w : Window} {I : Itp} (hV : View w I) {D fuel : Nat} (hF : rounds ≤ fuel)
    (hL : Lay I.U I.T I.H I.V fuel D w.cells I.pos) {N : Nat} (hN : D ≤ N) {c : Cmd} {a0 as : ASt} {af : AFlow} {s0 : St}
    (hR : RS I a0 s0) (h : aexec w (acall w 0) c a0 = some (af, as)) :
    ∃ fl s', exec (cx I.U I.T fuel N) c s0 = .ok (fl, s') ∧ RF I af fl ∧ RS I as s' :=
  exec_sound (C := cx I.U I.T fuel N) hV rfl rfl (call_sound hV hF (gapOk_of hL) 0 N hN) hF c hR h

/-- A state of `parse_if_statement`. -/
structure IfSt (n : Node) (v : List Node) (j : Nat) (s : St) : Prop where
  ps : s.ps = ⟨j, [], []⟩
  if_ : s.env v_if_ = .node n
  elseifs : s.env v_elseifs = .vec v
  semicolon : s.env v_semicolon = .bool true

theorem ifAt_sound {I : Itp} {i : Nat} {n v : Term} {as : ASt} {s : St} (h : ifAt i n v as = true) (hR : RS I as s) :
    IfSt (n.ev I).1 (v.ev I).2 (I.at_ i) s := by
  unfold ifAt at h
  simp only [Bool.and_eq_true, beq_iff_eq] at h
  obtain ⟨⟨⟨h1, h2⟩, h3⟩, h4⟩ := h
  refine ⟨by rw [hR.ps, h1]; rfl, ?_, ?_, ?_⟩
  · have := hR.env v_if_
    rw [h2] at this; exact this
  · have := hR.env v_elseifs
    rw [h3] at this; exact this
  · have := hR.env v_semicolon
    rw [h4] at this; exact this

theorem ifEnv_sound {I : Itp} {n : Node} {vs : List Node} {v : Term} {j : Nat} {s : St} (h : IfSt n vs j s) (hn : I.H 0 = n)
    (hv : (v.ev I).2 = vs) (hj : I.at_ 0 = j) : RS I ⟨0, ifEnv v⟩ s := by
  refine ⟨by rw [h.ps, ← hj]; rfl, ?_⟩
  intro x
  unfold ifEnv
  simp only [abind, AEnv.set]
  split
  · rename_i hx; subst hx; rw [h.if_, ← hn]; rfl
  · split
    · rename_i hx; subst hx; rw [h.elseifs, ← hv]; rfl
    · split
      · rename_i hx; subst hx; exact h.semicolon
      · trivial

theorem if_body : Program.parse_if_statement.body = .seq (seqL ifBody) (.seq (seqL (seqR ifBody)) (.seq (seqL (seqR (seqR ifBody)))
  (.seq (seqL (seqR (seqR (seqR ifBody)))) (.seq (seqL (seqR (seqR (seqR (seqR ifBody)))))
  (.seq (seqL (seqR (seqR (seqR (seqR (seqR ifBody)))))) (.seq (.loop ifLoop) ifPost)))))) := rfl

theorem exec_ifPre {C : Ctx} {s s' : St} (h : exec C ifPre s = .ok (.norm, s')) :
    exec C Program.parse_if_statement.body s = exec C (.seq (.loop ifLoop) ifPost) s' := by
  obtain ⟨s1, a1, h⟩ := seq_norm h
  obtain ⟨s2, a2, h⟩ := seq_norm h
  obtain ⟨s3, a3, h⟩ := seq_norm h
  obtain ⟨s4, a4, h⟩ := seq_norm h
  obtain ⟨s5, a5, a6⟩ := seq_norm h
  rw [if_body, seq_of a1, seq_of a2, seq_of a3, seq_of a4, seq_of a5, seq_of a6]

section
variable {U : Unicode} (hU : U.Lawful) {T : List Token} (hnc : ∀ t ∈ T, t.isComment = false) (hA : Lex.Apart T) {fuel : Nat}
  (hF : T.length + 1 ≤ fuel)
include hU hnc hA hF

/-- What stands after a body of `IF`. -/
theorem branch_next {br : Branches} {q : Nat} (hs : StandAt T q br.words) {l : Str} (hw : WordAt U T (q + br.words.length) l)
    (hl : l = "ELSE".toList ∨ l = "END".toList) :
    ∃ l', WordAt U T q l' ∧ (l' = "ELSEIF".toList ∨ l' = "ELSE".toList ∨ l' = "END".toList) := by
  cases br with
  | nil => exact ⟨l, hw, .inr hl⟩
  | cons e b br => exact ⟨_, wordAt_of hU (by simpa only [Branches.words] using hs) (by decide), .inl rfl⟩

omit hU hnc hA hF in
theorem stop_in {l : Str} (h : l = "ELSEIF".toList ∨ l = "ELSE".toList ∨ l = "END".toList) :
    (tk l).inKws U0 ifStops = true ∧ Base.lit l ∈ ifNexts := by
  rcases h with rfl | rfl | rfl <;> decide +kernel

omit hU hnc hA hF in
theorem stop_cell {q : Nat} {l : Str} (hw : WordAt U T q l) (h : l = "ELSEIF".toList ∨ l = "ELSE".toList ∨ l = "END".toList) :
    CellOk U T ⟨ifNexts, none⟩ q := by
  obtain ⟨t, h1, h2⟩ := hw
  exact fun _ => ⟨t, h1, _, (stop_in h).2, h2⟩

/-- The branches are parsed. -/
theorem loop_branches {N : Nat} : ∀ (br : Branches) (j : Nat) (n : Node) (v : List Node) (s : St) (l : Str),
    BranchesGood U T fuel br → br.Ok U → StandAt T (j + 1) br.words → WordAt U T (j + 1 + br.words.length) l →
    (l = "ELSE".toList ∨ l = "END".toList) → j + 1 + br.words.length + 1 < T.length → 4 * br.words.length + 1 ≤ N → IfSt n v j s →
    ∃ k s', k ≤ br.words.length ∧
      (∀ m, iterate (exec (cx U T fuel N) ifLoop) (m + k) s = iterate (exec (cx U T fuel N) ifLoop) m s') ∧
      IfSt n (v ++ br.trees T (j + 1)) (j + br.words.length) s'
  | .nil, j, n, v, s, l, _, _, _, _, _, _, _, hst => by
    refine ⟨0, s, Nat.zero_le _, fun m => rfl, ?_⟩
    simpa [Branches.trees, Branches.words] using hst
  | .cons e b br, j, n, v, s, l, hg, hok, hs, hw, hl, hm, hN, hst => by
    simp only [Branches.words, List.length_cons, List.length_append] at hs hw hm hN ⊢
    obtain ⟨he, hok, hok'⟩ : e.Ok U loosest ∧ b.Ok U ∧ br.Ok U := hok
    have hep := words_pos e he
    have s1 := StandAt.tail hs
    have s2 : StandAt T (j + 1 + 1 + e.words.length) _ := StandAt.right s1
    have s3 := StandAt.tail s2
    have s4 : StandAt T (j + 1 + 1 + e.words.length + 1 + b.words.length) _ := StandAt.right s3
    let q := j + 1
    let h := q + 1 + e.words.length
    let x := h + 1 + b.words.length
    have hw' : WordAt U T (x + br.words.length) l := by
      have : x + br.words.length = j + 1 + (e.words.length + (b.words.length + br.words.length + 1) + 1) := by omega
      rw [this]; exact hw
    obtain ⟨l', w1, w2⟩ := branch_next hU hnc hA hF (br := br) s4 hw' hl
    let I : Itp := ⟨U, T, [j, q, q + 1, q + 1 + e.words.length - 1, h, h + b.words.length, x],
      fun i => if i = 0 then n else if i = 1 then e.tree T (q + 1) else bodyNode T .KeywordWithStatements h (b.trees T (h + 1)),
      fun _ => v, 0, true, []⟩
    have hL : Lay U T I.H I.V fuel (4 * (e.words.length + b.words.length) + 1) wElseif.cells I.pos := by
      refine lay_cell bare_ok rfl (by omega) rfl rfl ?_
      refine lay_cell (wordAt_of hU hs (by decide)).cell rfl (by omega) rfl rfl ?_
      refine lay_cond hU hnc hA hF he (StandAt.left s1) (wordAt_of hU s2 (by decide)) rfl ?_ ?_ (by decide +kernel) ?_ ?_ ?_ ?_
      · rfl
      · omega
      · rfl
      · omega
      · rfl
      refine lay_body hU hnc hF hg.1 hok (StandAt.left s3) (wordAt_of hU s2 (by decide)) rfl rfl w1
        (stop_in w2).1 (by decide +kernel) rfl (by omega) rfl ?_
      exact lay_last (stop_cell w1 w2) rfl (by omega)
    have hchk : checkElseif = true := blocks_ok.2.2.2.2.2.2.1
    unfold checkElseif at hchk
    split at hchk
    case h_2 => cases hchk
    rename_i as hae
    obtain ⟨fl, s', k1, k2, k3⟩ := run (view_win hU hnc hA hF (I := I) rfl rfl hL rfl) (by have : rounds = 4 := rfl; omega) hL
      (N := N) (by omega) (ifEnv_sound (I := I) hst rfl rfl rfl) hae
    cases fl with
    | brk => exact k2.elim
    | ret v => exact k2.elim
    | norm =>
      have hst' := ifAt_sound hchk k3
      have ha : I.at_ 5 = j + (e.words.length + b.words.length + 2) := by show h + b.words.length = _; omega
      rw [ha] at hst'
      have hst1 : IfSt n ((Term.snoc (.holes 0) tElseif).ev I).2 (j + (e.words.length + b.words.length + 2)) s' := hst'
      have h5 : j + (e.words.length + b.words.length + 2) + 1 = x := by omega
      obtain ⟨k, s'', m1, m2, m3⟩ := loop_branches (N := N) br (j + (e.words.length + b.words.length + 2)) n
        ((Term.snoc (.holes 0) tElseif).ev I).2 s' l hg.2 hok'
        (by rw [h5]; exact s4) (by rw [h5]; exact hw') hl (by omega) (by omega) hst1
      refine ⟨k + 1, s'', by omega, fun m => ?_, ?_⟩
      · rw [← Nat.add_assoc, iterate_norm k1, m2]
      · rw [h5] at m3
        have e1 : j + (e.words.length + b.words.length + 2) + br.words.length =
          j + (e.words.length + (b.words.length + br.words.length + 1) + 1) := by omega
        rw [e1] at m3
        have e2 : ((Term.snoc (.holes 0) tElseif).ev I).2 ++ br.trees T x = v ++ (Branches.cons e b br).trees T (j + 1) := by
          simp only [Branches.trees, Term.ev, List.append_assoc, List.singleton_append]
          rfl
        rw [← e2]
        exact m3

/-- The loop ends. -/
theorem branches_end {N j : Nat} {n : Node} {v : List Node} {s : St} {l : Str} (hst : IfSt n v j s) (hw : WordAt U T (j + 1) l)
    (hl : l = "ELSE".toList ∨ l = "END".toList) (hm : j + 2 < T.length) :
    ∃ s', exec (cx U T fuel N) ifLoop s = .ok (.brk, s') ∧ IfSt n v j s' := by
  let I : Itp := ⟨U, T, [j, j + 1], fun _ => n, fun _ => v, 0, true, []⟩
  have hL : Lay U T I.H I.V fuel 0 (wIfEnd l).cells I.pos := by
    refine lay_cell bare_ok rfl (by omega) rfl rfl ?_
    exact lay_last hw.cell rfl (by omega)
  have hchk : checkIfEnd l = true := by
    rcases hl with rfl | rfl
    · exact blocks_ok.2.2.2.2.2.2.2.1
    · exact blocks_ok.2.2.2.2.2.2.2.2.1
  unfold checkIfEnd at hchk
  split at hchk
  case h_2 => cases hchk
  rename_i as hae
  obtain ⟨fl, s', k1, k2, k3⟩ := run (view_win hU hnc hA hF (I := I) rfl rfl hL rfl) (by have : rounds = 4 := rfl; omega) hL
    (N := N) (by omega) (ifEnv_sound (I := I) hst rfl rfl rfl) hae
  cases fl with
  | norm => exact k2.elim
  | ret v => exact k2.elim
  | brk => exact ⟨s', k1, ifAt_sound hchk k3⟩

omit hU hnc hA hF in
theorem ret_run {w : Window} {I : Itp} (hV : View w I) {D : Nat} (hF : rounds ≤ fuel)
    (hL : Lay I.U I.T I.H I.V fuel D w.cells I.pos) {N : Nat} (hN : D ≤ N) {c : Cmd} {a0 : ASt} {s0 : St} (hR : RS I a0 s0) {i : Nat}
    {t : Term} (h : retAt i t (aexec w (acall w 0) c a0) = true) :
    ∃ s', exec (cx I.U I.T fuel N) c s0 = .ok (.ret (.node (t.ev I).1), s') ∧ s'.ps = I.ps i := by
  unfold retAt at h
  split at h
  case h_2 => cases h
  rename_i t' as hae
  simp only [Bool.and_eq_true, beq_iff_eq] at h
  obtain ⟨fl, s', k1, k2, k3⟩ := run hV hF hL hN hR hae
  cases fl with
  | norm => exact k2.elim
  | brk => exact k2.elim
  | ret v =>
    have hv : v = .node ((t'.ev I).1) := k2
    refine ⟨s', ?_, by rw [k3.ps, h.2]⟩
    rw [k1, hv, ← h.1, Term.ev_norm]

/-- The terms for a vector. -/
theorem vec_cases (v : List Node) : ∃ (b : Bool) (init : List Node) (last : Node),
    ∀ (I : Itp), I.V 0 = init → I.H 1 = last → ((branchVec b).ev I).2 = v ∧
      (∀ n, I.H 0 = n → ((branchTerm b).ev I).1 = pushSome n .k_elseifs v ∧ ((stmtsTerm b).ev I).1 = pushSome n .k_stmts v) := by
  rcases List.eq_nil_or_concat v with rfl | ⟨init, last, rfl⟩
  · exact ⟨false, [], Node.empty .Unknown, fun I _ _ => ⟨rfl, fun n hn => ⟨hn, hn⟩⟩⟩
  · refine ⟨true, init, last, fun I h1 h2 => ⟨?_, fun n hn => ?_⟩⟩
    · simp [branchVec, Term.ev, h1, h2]
    · unfold pushSome
      rw [if_neg (by simp), if_neg (by simp)]
      simp [branchTerm, stmtsTerm, branchVec, Term.ev, h1, h2, hn]

/-- `END IF;` -/
theorem if_end {N j : Nat} {n : Node} {v : List Node} {s : St} (hst : IfSt n v j s)
    (hs : StandAt T (j + 1) ["END".toList, "IF".toList, ";".toList]) (hm : j + 4 < T.length) :
    ∃ s', exec (cx U T fuel N) ifPost s = .ok (.ret (.node (endNode T (pushSome n .k_elseifs v) .k_end_if (j + 1))), s') ∧
      s'.ps = ⟨j + 3, [], []⟩ := by
  obtain ⟨b, init, last, hb⟩ := vec_cases hU hnc hA hF v
  let I : Itp := ⟨U, T, [j, j + 1, j + 2, j + 3], fun i => if i = 0 then n else last, fun _ => init, 0, true, []⟩
  obtain ⟨h1, h2⟩ := hb I rfl rfl
  have s2 := StandAt.tail hs
  have s3 := StandAt.tail s2
  have hL : Lay U T I.H I.V fuel 0 wPost.cells I.pos := by
    refine lay_cell bare_ok rfl (by omega) rfl rfl ?_
    refine lay_cell (wordAt_of hU hs (by decide)).cell rfl (by omega) rfl rfl ?_
    refine lay_cell (wordAt_of hU s2 (by decide)).cell rfl (by omega) rfl rfl ?_
    exact lay_last (wordAt_of hU s3 (by decide)).cell rfl (by omega)
  obtain ⟨s', k1, k2⟩ := ret_run (view_win hU hnc hA hF (I := I) rfl rfl hL rfl) (by have : rounds = 4 := rfl; omega) hL
    (N := N) (by omega) (ifEnv_sound (I := I) hst rfl h1 rfl) (blocks_ok.2.2.2.2.2.2.2.2.2.1 b)
  refine ⟨s', ?_, k2⟩
  rw [k1, ← (h2 n rfl).1]
  rfl

/-- `ELSE … END IF;` -/
theorem if_else {N j : Nat} {n : Node} {v : List Node} {s : St} (hst : IfSt n v j s) (c : Blocks) (hg : BlocksGood U T fuel c)
    (hok : c.Ok U) (hs : StandAt T (j + 1) ("ELSE".toList :: (c.words ++ ["END".toList, "IF".toList, ";".toList])))
    (hm : j + c.words.length + 5 < T.length) (hN : 4 * c.words.length + 1 ≤ N) :
    ∃ s', exec (cx U T fuel N) ifPost s = .ok (.ret (.node (endNode T ((pushSome n .k_elseifs v).pushNode .k_else
        (bodyNode T .KeywordWithStatements (j + 1) (c.trees T (j + 1 + 1)))) .k_end_if (j + 1 + 1 + c.words.length))), s') ∧
      s'.ps = ⟨j + 1 + 1 + c.words.length + 2, [], []⟩ := by
  obtain ⟨b, init, last, hb⟩ := vec_cases hU hnc hA hF v
  let x := j + 1 + 1 + c.words.length
  let I : Itp := ⟨U, T, [j, j + 1, j + 1 + c.words.length, x, x + 1, x + 2],
    fun i => if i = 0 then n else if i = 1 then last else bodyNode T .KeywordWithStatements (j + 1) (c.trees T (j + 1 + 1)),
    fun _ => init, 0, true, []⟩
  obtain ⟨h1, h2⟩ := hb I rfl rfl
  have s1 := StandAt.tail hs
  have s2 : StandAt T (j + 1 + 1 + c.words.length) _ := StandAt.right s1
  have s3 := StandAt.tail s2
  have s4 := StandAt.tail s3
  have hL : Lay U T I.H I.V fuel (4 * c.words.length + 1) wElse.cells I.pos := by
    refine lay_cell bare_ok rfl (by omega) rfl rfl ?_
    refine lay_body hU hnc hF hg hok (StandAt.left s1) (wordAt_of hU hs (by decide)) rfl rfl (wordAt_of hU s2 (by decide))
      (by decide +kernel) (by decide +kernel) rfl (Nat.le_refl _) rfl ?_
    refine lay_cell (wordAt_of hU s2 (by decide)).cell rfl (by omega) rfl rfl ?_
    refine lay_cell (wordAt_of hU s3 (by decide)).cell rfl (by omega) rfl rfl ?_
    exact lay_last (wordAt_of hU s4 (by decide)).cell rfl (by omega)
  obtain ⟨s', k1, k2⟩ := ret_run (view_win hU hnc hA hF (I := I) rfl rfl hL rfl) (by have : rounds = 4 := rfl; omega) hL
    (N := N) (by omega) (ifEnv_sound (I := I) hst rfl h1 rfl) (blocks_ok.2.2.2.2.2.2.2.2.2.2.1 b)
  refine ⟨s', ?_, k2⟩
  rw [k1, ← (h2 n rfl).1]
  rfl

/-- `IF` up to `ELSE` or `END`, and what follows it. -/
theorem call_if {e : Ex} {b : Blocks} {br : Branches} {rest : List Str} {l : Str} {q : Nat} (he : e.Ok U loosest) (hok : b.Ok U)
    (hok' : br.Ok U) (hg : BlocksGood U T fuel b) (hg' : BranchesGood U T fuel br)
    (hs : StandAt T q ("IF".toList :: (e.words ++ "THEN".toList :: (b.words ++ (br.words ++ l :: rest)))))
    (hl : l = "ELSE".toList ∨ l = "END".toList)
    (hm : q + (e.words.length + (b.words.length + br.words.length)) + 4 < T.length) {M : Nat}
    (hN : 4 * (e.words.length + (b.words.length + br.words.length)) + 1 ≤ M) {r : Node} {j : Nat} (hj : j + 1 < T.length)
    (hpost : ∀ s, IfSt (((leaf T .IfStatement q).pushNode .k_condition (e.tree T (q + 1))).pushNode .k_then
        (bodyNode T .KeywordWithStatements (q + 1 + e.words.length) (b.trees T (q + 1 + e.words.length + 1))))
        (br.trees T (q + 1 + e.words.length + 1 + b.words.length))
        (q + 1 + e.words.length + b.words.length + br.words.length) s →
      ∃ s', exec (cx U T fuel M) ifPost s = .ok (.ret (.node r), s') ∧ s'.ps = ⟨j, [], []⟩) :
    callN U Program.defs T fuel (M + 2) .parse_statement [.bool true] ⟨q, [], []⟩ = .ok (.node r, ⟨j, [], []⟩) := by
  have hep := words_pos e he
  have s1 := StandAt.tail hs
  have s2 : StandAt T (q + 1 + e.words.length) _ := StandAt.right s1
  have s3 := StandAt.tail s2
  have s4 : StandAt T (q + 1 + e.words.length + 1 + b.words.length) _ := StandAt.right s3
  have s5 : StandAt T (q + 1 + e.words.length + 1 + b.words.length + br.words.length) _ := StandAt.right s4
  have hlv : l ∈ vocab := by rcases hl with rfl | rfl <;> decide
  have hw := wordAt_of hU s5 hlv
  have hr : rounds = 4 := rfl
  let h := q + 1 + e.words.length
  let x := h + 1 + b.words.length
  obtain ⟨l', w1, w2⟩ := branch_next hU hnc hA hF (br := br) (StandAt.left s4) hw hl
  obtain ⟨t, f1, f2, f3, f4, _⟩ := first_of hU e he (StandAt.left s1)
  refine dispatch hnc hA (b := .lit "IF".toList) (next := firsts) (f := .parse_if_statement) blocks_ok.2.2.2.1
    (wordAt_of hU hs (by decide)).cell ⟨t, f1, f2, f3, f4⟩ (by omega) hj (by omega) ?_
  let I : Itp := ⟨U, T, [q, q + 1, q + 1 + e.words.length - 1, h, h + b.words.length, x],
    fun i => if i = 1 then e.tree T (q + 1) else bodyNode T .KeywordWithStatements h (b.trees T (h + 1)), fun _ => [], 0, true, []⟩
  have hL : Lay U T I.H I.V fuel (4 * (e.words.length + b.words.length) + 1) wIf.cells I.pos := by
    refine lay_cell (wordAt_of hU hs (by decide)).cell rfl (by omega) rfl rfl ?_
    refine lay_cond hU hnc hA hF he (StandAt.left s1) (wordAt_of hU s2 (by decide)) rfl ?_ ?_ (by decide +kernel) ?_ ?_ ?_ ?_
    · rfl
    · omega
    · rfl
    · omega
    · rfl
    refine lay_body hU hnc hF hg hok (StandAt.left s3) (wordAt_of hU s2 (by decide)) rfl rfl w1
      (stop_in w2).1 (by decide +kernel) rfl (by omega) rfl ?_
    exact lay_last (stop_cell w1 w2) rfl (by omega)
  have hchk : checkIfPre = true := blocks_ok.2.2.2.2.2.1
  unfold checkIfPre at hchk
  split at hchk
  case h_2 => cases hchk
  rename_i as hae
  obtain ⟨fl, s0, k1, k2, k3⟩ := run (view_win hU hnc hA hF (I := I) rfl rfl hL rfl) (by omega) hL
    (N := M) (by omega) (s0 := ⟨⟨q, [], []⟩, bindParams Program.parse_if_statement.params [.bool true]⟩)
    ⟨rfl, bind_sound (avs := [.bool true]) (vs := [.bool true]) _ ⟨rfl, trivial⟩⟩ hae
  cases fl with
  | brk => exact k2.elim
  | ret v => exact k2.elim
  | norm =>
    have hst := ifAt_sound hchk k3
    have e1 : h + b.words.length + 1 = x := by omega
    have hst : IfSt (((leaf T .IfStatement q).pushNode .k_condition (e.tree T (q + 1))).pushNode .k_then
        (bodyNode T .KeywordWithStatements h (b.trees T (h + 1)))) [] (h + b.words.length) s0 := hst
    obtain ⟨k, sl, m1, m2, m3⟩ := loop_branches hU hnc hA hF (N := M) br (h + b.words.length) _ _ s0 l hg' hok'
      (by rw [e1]; exact StandAt.left s4) (by rw [e1]; exact hw) hl (by omega) (by omega) hst
    obtain ⟨sb, b1, b2⟩ := branches_end hU hnc hA hF (N := M) m3
      (by rw [show h + b.words.length + br.words.length + 1 = x + br.words.length by omega]; exact hw) hl (by omega)
    rw [e1] at b2
    obtain ⟨s', p1, p2⟩ := hpost sb b2
    have hloop : exec (cx U T fuel M) (.loop ifLoop) s0 = .ok (.norm, sb) := by
      show iterate _ fuel s0 = _
      have := m2 (fuel - k)
      rw [Nat.sub_add_cancel (by omega)] at this
      rw [this]
      obtain ⟨f, hf⟩ : ∃ f, fuel - k = f + 1 := ⟨fuel - k - 1, by omega⟩
      rw [hf]
      simp only [iterate, b1]
    show runBody (cx U T fuel M) Program.parse_if_statement _ _ = _
    unfold runBody
    rw [exec_ifPre k1, seq_of hloop, p1]
    simp only [p2]

theorem good_if (e : Ex) (b : Blocks) (br : Branches) (hg : BlocksGood U T fuel b) (hg' : BranchesGood U T fuel br) :
    BlockCall U T fuel (.if e b br) := by
  intro q hok hs hm N hN
  obtain ⟨he, hok, hok'⟩ : e.Ok U loosest ∧ b.Ok U ∧ br.Ok U := hok
  simp only [Block.words, List.length_cons, List.length_append, List.length_nil] at hs hm hN ⊢
  have s1 := StandAt.tail hs
  have s2 : StandAt T (q + 1 + e.words.length) _ := StandAt.right s1
  have s3 := StandAt.tail s2
  have s4 : StandAt T (q + 1 + e.words.length + 1 + b.words.length) _ := StandAt.right s3
  have s5 : StandAt T (q + 1 + e.words.length + 1 + b.words.length + br.words.length) _ := StandAt.right s4
  obtain ⟨M, rfl⟩ : ∃ M, N = M + 2 := ⟨N - 2, by omega⟩
  have e1 : q + 1 + e.words.length + b.words.length + br.words.length + 1 =
    q + 1 + e.words.length + 1 + b.words.length + br.words.length := by omega
  refine call_if hU hnc hA hF he hok hok' hg hg' hs (.inr rfl) (by omega) (by omega) (by omega) fun s hst => ?_
  obtain ⟨s', h1, h2⟩ := if_end hU hnc hA hF (N := M) hst (by rw [e1]; exact s5) (by omega)
  rw [e1] at h1
  refine ⟨s', h1, ?_⟩
  rw [h2]
  congr 1
  omega

theorem good_ifElse (e : Ex) (b : Blocks) (br : Branches) (c : Blocks) (hg : BlocksGood U T fuel b) (hg' : BranchesGood U T fuel br)
    (hgc : BlocksGood U T fuel c) : BlockCall U T fuel (.ifElse e b br c) := by
  intro q hok hs hm N hN
  obtain ⟨he, hok, hok', hokc⟩ : e.Ok U loosest ∧ b.Ok U ∧ br.Ok U ∧ c.Ok U := hok
  simp only [Block.words, List.length_cons, List.length_append, List.length_nil] at hs hm hN ⊢
  have s1 := StandAt.tail hs
  have s2 : StandAt T (q + 1 + e.words.length) _ := StandAt.right s1
  have s3 := StandAt.tail s2
  have s4 : StandAt T (q + 1 + e.words.length + 1 + b.words.length) _ := StandAt.right s3
  have s5 : StandAt T (q + 1 + e.words.length + 1 + b.words.length + br.words.length) _ := StandAt.right s4
  obtain ⟨M, rfl⟩ : ∃ M, N = M + 2 := ⟨N - 2, by omega⟩
  have e1 : q + 1 + e.words.length + b.words.length + br.words.length + 1 =
    q + 1 + e.words.length + 1 + b.words.length + br.words.length := by omega
  refine call_if hU hnc hA hF he hok hok' hg hg' hs (.inl rfl) (by omega) (by omega) (by omega) fun s hst => ?_
  obtain ⟨s', h1, h2⟩ := if_else hU hnc hA hF (N := M) hst c hgc hokc (by rw [e1]; exact s5) (by omega) (by omega)
  rw [e1] at h1 h2
  refine ⟨s', h1, ?_⟩
  rw [h2]
  congr 1
  omega

omit hU hnc hA hF in
theorem begin_body : Program.parse_begin_statement.body = .seq (.set v_begin (.construct .BeginStatement))
    (.seq (.set v_stmts .nilVec) (.seq (.loop (stmtLoop (.up (.lit 1) [.END, .EXCEPTION]))) beginPost)) := rfl

omit hU hnc hA hF in
theorem beginEnv_sound {I : Itp} {n : Node} {vs : List Node} {v : Term} {j : Nat} (hn : I.H 0 = n) (hv : (v.ev I).2 = vs)
    (hj : I.at_ 0 = j) :
    RS I ⟨0, beginEnv v⟩ ⟨⟨j, [], []⟩, ((bindParams [v_semicolon] [.bool true]).set v_begin (.node n)).set v_stmts (.vec vs)⟩ := by
  refine ⟨by rw [← hj]; rfl, ?_⟩
  intro x
  unfold beginEnv
  simp only [abind, AEnv.set]
  split
  · rename_i hx; subst hx; rw [← hn]; rfl
  · split
    · rename_i hx; subst hx; rw [← hv]; rfl
    · split
      · rename_i hx; subst hx; rfl
      · trivial

/-- `BEGIN` up to `EXCEPTION` or `END`, and what follows it. -/
theorem call_begin {b : Blocks} {rest : List Str} {l : Str} {q : Nat} (hok : b.Ok U) (hg : BlocksGood U T fuel b)
    (hs : StandAt T q ("BEGIN".toList :: (b.words ++ l :: rest))) (hl : l = "EXCEPTION".toList ∨ l = "END".toList)
    (hm : q + b.words.length + 2 < T.length) {M : Nat} (hN : 4 * b.words.length + 1 ≤ M) {r : Node} {j : Nat} (hj : j + 1 < T.length)
    (hpost : ∃ s', exec (cx U T fuel M) beginPost ⟨⟨q + b.words.length, [], []⟩, ((bindParams [v_semicolon] [.bool true]).set v_begin
        (.node (leaf T .BeginStatement q))).set v_stmts (.vec (b.trees T (q + 1)))⟩ = .ok (.ret (.node r), s') ∧
      s'.ps = ⟨j, [], []⟩) :
    callN U Program.defs T fuel (M + 2) .parse_statement [.bool true] ⟨q, [], []⟩ = .ok (.node r, ⟨j, [], []⟩) := by
  have s1 := StandAt.tail hs
  have s2 : StandAt T (q + 1 + b.words.length) _ := StandAt.right s1
  have hlv : l ∈ vocab := by rcases hl with rfl | rfl <;> decide
  have hw := wordAt_of hU s2 hlv
  have hr : rounds = 4 := rfl
  have hnext : ∃ t, T[q + 1]? = some t ∧ ∃ b ∈ beginNexts, IsBase U T (q + 1) t b := by
    cases b with
    | nil =>
      obtain ⟨t, h1, h2⟩ := hw
      refine ⟨t, h1, .lit l, ?_, h2⟩
      rcases hl with rfl | rfl <;> decide
    | cons b bs =>
      obtain ⟨h, r, hh, hmem⟩ := block_head hok.1
      have s1' : StandAt T (q + 1) b.words := StandAt.left (StandAt.left s1)
      rw [hh] at s1'
      rcases hmem with hmem | hmem
      · obtain ⟨t, h1, h2⟩ := wordAt_of hU s1' (words_vocab h hmem)
        exact ⟨t, h1, .lit h, List.mem_cons_of_mem _ (List.mem_cons_of_mem _ (List.mem_cons_of_mem _
          (List.mem_map.2 ⟨h, hmem, rfl⟩))), h2⟩
      · obtain ⟨t, h1, h2⟩ := name_at hU hmem s1'
        exact ⟨t, h1, _, List.mem_cons_self, h2⟩
  refine dispatch hnc hA (b := .lit "BEGIN".toList) (next := beginNexts) (f := .parse_begin_statement) blocks_ok.2.2.2.2.1
    (wordAt_of hU hs (by decide)).cell hnext (by omega) hj (by omega) ?_
  let env : Env := (bindParams [v_semicolon] [.bool true]).set v_begin (.node (leaf T .BeginStatement q))
  have hloop := loop_stmts hU hnc (c := .up (.lit 1) [.END, .EXCEPTION]) (ks := [.END, .EXCEPTION]) (env := env) (N := M) (by
    intro j acc t ht
    simp [evalCond, offTok, evalOff, getToken_next hnc ht]) (by decide +kernel) b q fuel [] l hg hok (StandAt.left s1) hw
    (by rcases hl with rfl | rfl <;> decide +kernel) (by omega) (by omega)
  have e1 : exec (cx U T fuel M) (.set v_begin (.construct .BeginStatement)) ⟨⟨q, [], []⟩, bindParams [v_semicolon] [.bool true]⟩ =
      .ok (.norm, ⟨⟨q, [], []⟩, env⟩) := by
    simp only [exec, evalExp, construct_leaf (U := U) (T := T) (q := q) (ty := .BeginStatement) (by omega) (by decide)]; rfl
  have e2 : exec (cx U T fuel M) (.set v_stmts .nilVec) ⟨⟨q, [], []⟩, env⟩ =
      .ok (.norm, ⟨⟨q, [], []⟩, env.set v_stmts (.vec [])⟩) := rfl
  obtain ⟨s', p1, p2⟩ := hpost
  have hb : exec (cx U T fuel M) Program.parse_begin_statement.body ⟨⟨q, [], []⟩, bindParams [v_semicolon] [.bool true]⟩ =
      .ok (.ret (.node r), s') := by
    rw [begin_body, seq_of e1, seq_of e2, seq_of (show exec (cx U T fuel M) (.loop _) _ = _ from hloop)]
    exact p1
  show runBody (cx U T fuel M) Program.parse_begin_statement _ _ = _
  unfold runBody
  rw [show Program.parse_begin_statement.params = [v_semicolon] from rfl, hb]
  simp only [p2]

theorem good_begin (b : Blocks) (hg : BlocksGood U T fuel b) : BlockCall U T fuel (.begin b) := by
  intro q hok hs hm N hN
  have hok : b.Ok U := hok
  simp only [Block.words, List.length_cons, List.length_append, List.length_nil] at hs hm hN ⊢
  have s1 := StandAt.tail hs
  have s2 : StandAt T (q + 1 + b.words.length) _ := StandAt.right s1
  have s3 := StandAt.tail s2
  obtain ⟨M, rfl⟩ : ∃ M, N = M + 2 := ⟨N - 2, by omega⟩
  refine call_begin hU hnc hA hF hok hg hs (.inr rfl) (by omega) (by omega) (by omega) ?_
  obtain ⟨v, init, last, hb⟩ := vec_cases hU hnc hA hF (b.trees T (q + 1))
  let d := q + 1 + b.words.length
  let I : Itp := ⟨U, T, [q + b.words.length, d, d + 1], fun i => if i = 0 then leaf T .BeginStatement q else last, fun _ => init, 0,
    true, []⟩
  obtain ⟨h1, h2⟩ := hb I rfl rfl
  have hL : Lay U T I.H I.V fuel 0 wBegin.cells I.pos := by
    refine lay_cell bare_ok rfl (by omega) rfl (by omega) ?_
    refine lay_cell (wordAt_of hU s2 (by decide)).cell rfl (by omega) rfl rfl ?_
    exact lay_last (wordAt_of hU s3 (by decide)).cell rfl (by omega)
  obtain ⟨s', k1, k2⟩ := ret_run (view_win hU hnc hA hF (I := I) rfl rfl hL rfl) (by have : rounds = 4 := rfl; omega) hL
    (N := M) (by omega) (beginEnv_sound (I := I) (n := leaf T .BeginStatement q) rfl h1 rfl)
    (blocks_ok.2.2.2.2.2.2.2.2.2.2.2.1 v)
  refine ⟨s', ?_, ?_⟩
  · refine k1.trans ?_
    simp only [Block.tree]
    rw [← (h2 (leaf T .BeginStatement q) rfl).2]
    rfl
  · rw [k2]
    show PS.mk (d + 1) [] [] = _
    congr 1
    omega

theorem good_catch (b h : Blocks) (hg : BlocksGood U T fuel b) (hg' : BlocksGood U T fuel h) : BlockCall U T fuel (.catch b h) := by
  intro q hok hs hm N hN
  obtain ⟨hok, hok'⟩ : b.Ok U ∧ h.Ok U := hok
  simp only [Block.words, List.length_cons, List.length_append, List.length_nil] at hs hm hN ⊢
  have s1 := StandAt.tail hs
  have s2 : StandAt T (q + 1 + b.words.length) _ := StandAt.right s1
  have s3 := StandAt.tail s2
  have s4 := StandAt.tail s3
  have s5 := StandAt.tail s4
  have s6 := StandAt.tail s5
  have s7 : StandAt T (q + 1 + b.words.length + 4 + h.words.length) _ := StandAt.right s6
  have s8 := StandAt.tail s7
  obtain ⟨M, rfl⟩ : ∃ M, N = M + 2 := ⟨N - 2, by omega⟩
  refine call_begin hU hnc hA hF hok hg hs (.inl rfl) (by omega) (by omega) (by omega) ?_
  obtain ⟨v, init, last, hb⟩ := vec_cases hU hnc hA hF (b.trees T (q + 1))
  let x := q + 1 + b.words.length
  let d := x + 4 + h.words.length
  let I : Itp := ⟨U, T, [q + b.words.length, x, x + 1, x + 2, x + 3, x + 3 + h.words.length, d, d + 1],
    fun i => if i = 0 then leaf T .BeginStatement q else if i = 1 then last else
      bodyNode T .KeywordWithStatements (x + 3) (h.trees T (x + 4)), fun _ => init, 0, true, []⟩
  obtain ⟨h1, h2⟩ := hb I rfl rfl
  have hL : Lay U T I.H I.V fuel (4 * h.words.length + 1) wCatch.cells I.pos := by
    refine lay_cell bare_ok rfl (by omega) rfl (by omega) ?_
    refine lay_cell (wordAt_of hU s2 (by decide)).cell rfl (by omega) rfl rfl ?_
    refine lay_cell (wordAt_of hU s3 (by decide)).cell rfl (by omega) rfl rfl ?_
    refine lay_cell (wordAt_of hU s4 (by decide)).cell rfl (by omega) rfl rfl ?_
    refine lay_body hU hnc hF hg' hok' (StandAt.left s6) (wordAt_of hU s5 (by decide)) rfl rfl (wordAt_of hU s7 (by decide))
      (by decide +kernel) (by decide +kernel) rfl (Nat.le_refl _) rfl ?_
    refine lay_cell (wordAt_of hU s7 (by decide)).cell rfl (by omega) rfl rfl ?_
    exact lay_last (wordAt_of hU s8 (by decide)).cell rfl (by omega)
  obtain ⟨s', k1, k2⟩ := ret_run (view_win hU hnc hA hF (I := I) rfl rfl hL rfl) (by have : rounds = 4 := rfl; omega) hL
    (N := M) (by omega) (beginEnv_sound (I := I) (n := leaf T .BeginStatement q) rfl h1 rfl)
    (blocks_ok.2.2.2.2.2.2.2.2.2.2.2.2 v)
  refine ⟨s', ?_, ?_⟩
  · refine k1.trans ?_
    simp only [Block.tree]
    rw [← (h2 (leaf T .BeginStatement q) rfl).2]
    rfl
  · rw [k2]
    show PS.mk (d + 1) [] [] = _
    congr 1
    omega

end

end Verif.Sym
