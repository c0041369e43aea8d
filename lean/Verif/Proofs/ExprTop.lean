import Verif.Proofs.Expr
import Verif.Proofs.ExprStmts
/-! Scripts of the statements of Spec/Expr.lean give their trees. -/
namespace Verif.Sym
open Core Interp Spec
open Slow (StandAt)

/-- A word that is no comment. -/
def Plain (l : Str) : Prop := (⟨0, 0, l⟩ : Token).isComment = false

theorem plain_head {c : Char} {cs : Str} (h : c ≠ '#' ∧ c ≠ '-' ∧ c ≠ '/') : Plain (c :: cs) := by
  unfold Plain Token.isComment
  split
  · rename_i h'; injection h' with h1 h2; exact absurd h1 h.1
  · rename_i h'; injection h' with h1 h2; exact absurd h1 h.2.1
  · rename_i h'; injection h' with h1 h2; exact absurd h1 h.2.2
  · rfl

theorem plain_name {c : Char} (h : NameStart c) : c ≠ '#' ∧ c ≠ '-' ∧ c ≠ '/' := by
  refine ⟨?_, ?_, ?_⟩ <;> (rintro rfl; rcases h with h | h | h <;> exact absurd h (by decide))

theorem plain_digit {c : Char} (h : Digit c) : c ≠ '#' ∧ c ≠ '-' ∧ c ≠ '/' := by
  refine ⟨?_, ?_, ?_⟩ <;> (rintro rfl; exact absurd h (by unfold Digit; decide))

theorem plain_atom {U : Unicode} {l : Str} {ty : NodeType} (h : AtomIs U l ty) : Plain l := by
  cases h with
  | name c cs h _ _ => exact plain_head (plain_name h)
  | int c cs h => exact plain_head (plain_digit (h c (by simp)))
  | frac cs d ds h _ =>
    cases cs with
    | nil => exact plain_head (by decide)
    | cons c cs => exact plain_head (plain_digit (h c (by simp)))
  | string q hq cs =>
    rcases hq with rfl | rfl
    · exact plain_head (by decide)
    · exact plain_head (by decide)
  | param c cs _ _ => exact plain_head (by decide)
  | true => exact plain_head (by decide)
  | false => exact plain_head (by decide)
  | null => exact plain_head (by decide)

theorem plain_vocab : ∀ l ∈ vocab, Plain l := by unfold Plain; decide +kernel

section
variable {U : Unicode} {P : Str → Prop} (hA : ∀ l ty, AtomIs U l ty → P l) (hV : ∀ l ∈ vocab, P l)

include hV in
theorem all_weave : ∀ (is : List Item) (ws : List (List Str)), itemsOk is = true → (∀ w ∈ ws, ∀ l ∈ w, P l) →
    ∀ l ∈ weave is ws, P l := by
  intro is
  induction is with
  | nil => intro ws _ _ l hl; cases hl
  | cons it is ih =>
    have step : ∀ ws, itemsOk is = true → (∀ w ∈ ws, ∀ l ∈ w, P l) → ∀ l ∈ weave (.name :: is) ws, P l := by
      intro ws hI hw l hl
      cases ws with
      | nil => exact ih [] hI hw l hl
      | cons w ws =>
        rcases List.mem_append.1 hl with hl | hl
        · exact hw w (by simp) l hl
        · exact ih ws hI (fun w h => hw w (by simp [h])) l hl
    intro ws hI hw l hl
    cases it with
    | tok l' =>
      simp only [itemsOk, Bool.and_eq_true, List.contains_iff_mem] at hI
      rcases List.mem_cons.1 hl with rfl | hl
      · exact hV _ hI.1
      · exact ih ws hI.2 hw l hl
    | name => exact step ws hI hw l hl
    | _ =>
      simp only [itemsOk, Bool.and_eq_true] at hI
      exact step ws hI.2 hw l (by cases ws <;> exact hl)

include hA hV in
theorem all_tail {k : ListKind} {t : Tail} (h : t.Ok U k) : ∀ l ∈ t.words, P l := by
  intro l hl
  cases k <;> cases t <;> first | exact h.elim | skip
  · rcases List.mem_cons.1 hl with rfl | hl
    · exact hV _ (by decide)
    · rw [List.mem_singleton.1 hl]
      exact hA _ _ h
  · rw [List.mem_singleton.1 hl]
    exact hA _ _ h
  · rw [List.mem_singleton.1 hl]
    rcases (show _ ∨ _ from h) with h | h <;> rw [h] <;> (exact hV _ (by decide))

include hA hV
mutual
theorem all_ex : ∀ (e : Ex) {p : Nat}, e.Ok U p → ∀ l ∈ e.words, P l
  | .atom l ty, p, h => by
    intro l' hl
    rw [List.mem_singleton.1 hl]
    exact hA _ _ h
  | .pre s as, p, h => all_weave hV _ _ (shape_facts (mem_left h.1)).1 (all_args as h.2)
  | .post x s as, p, h => by
    intro l hl
    rcases List.mem_append.1 hl with hl | hl
    · exact all_ex x h.2.2.1 l hl
    · exact all_weave hV _ _ (shape_facts (mem_right h.1)).1 (all_args as h.2.2.2.2.2) l hl
theorem all_exs : ∀ (es : Exs) {s : Place}, es.Ok U s → ∀ l ∈ es.words, P l
  | .one e, s, h => by
    cases s with
    | name =>
      obtain ⟨l, rfl, h⟩ := h
      intro l' hl
      rw [List.mem_singleton.1 hl]
      exact hA _ _ h
    | sub b pl n => exact all_ex e h.1
    | list k => exact all_ex e h
    | list2 => exact h.elim
  | .cons e es, s, h => by
    have hc : ∀ {s : Place}, e.Ok U loosest ∧ es.Ok U s → ∀ l ∈ (Exs.cons e es).words, P l := by
      intro s h l hl
      rcases List.mem_append.1 hl with hl | hl
      · exact all_ex e h.1 l hl
      · rcases List.mem_cons.1 hl with rfl | hl
        · exact hV _ (by decide)
        · exact all_exs es h.2 l hl
    cases s with
    | name => exact h.elim
    | sub b pl n => exact h.elim
    | list k => exact hc h
    | list2 => exact hc h
  | .last e t, s, h => by
    cases s with
    | name => exact h.elim
    | sub b pl n => exact h.elim
    | list2 => exact h.elim
    | list k =>
      intro l hl
      rcases List.mem_append.1 hl with hl | hl
      · exact all_ex e h.1 l hl
      · exact all_tail hA hV h.2.1 l hl
  | .more e t es, s, h => by
    cases s with
    | name => exact h.elim
    | sub b pl n => exact h.elim
    | list2 => exact h.elim
    | list k =>
      intro l hl
      rcases List.mem_append.1 hl with hl | hl
      · rcases List.mem_append.1 hl with hl | hl
        · exact all_ex e h.1 l hl
        · exact all_tail hA hV h.2.1 l hl
      · rcases List.mem_cons.1 hl with rfl | hl
        · exact hV _ (by decide)
        · exact all_exs es h.2.2.2 l hl
theorem all_args : ∀ (as : Args) {ss : List Place}, as.Ok U ss → ∀ w ∈ as.words, ∀ l ∈ w, P l
  | .nil, ss, h => by intro w hw; cases hw
  | .cons es as, [], h => h.elim
  | .cons es as, s :: ss, h => by
    intro w hw
    rcases List.mem_cons.1 hw with rfl | hw
    · exact all_exs es h.1
    · exact all_args as h.2 w hw
end

theorem all_stmt {s : Stmt} (h : s.Ok U) : ∀ l ∈ s.words, P l := by
  intro l hl
  rcases List.mem_append.1 hl with hl | hl
  · exact all_weave hV _ _ (stmt_facts h.1).1 (all_args hA hV s.args h.2) l hl
  · rw [List.mem_singleton.1 hl]
    exact hV _ (by decide)

end

theorem plain_stmt {U : Unicode} {s : Stmt} (h : s.Ok U) : ∀ l ∈ s.words, Plain l :=
  all_stmt (fun _ _ h => plain_atom h) plain_vocab h

section
variable {U : Unicode} (hU : U.Lawful) {T : List Token} (hnc : ∀ t ∈ T, t.isComment = false) (hA : Lex.Apart T) {fuel : Nat}
  (hF : T.length + 1 ≤ fuel)

include hU hnc hA hF in
/-- A statement is parsed. -/
theorem call_stmt (s : Stmt) (hok : s.Ok U) {q : Nat} (hs : StandAt T q s.words) (hm : q + s.words.length < T.length) {N : Nat}
    (hN : 4 * s.words.length ≤ N) :
    callN U Program.defs T fuel N .parse_statement [.bool true] ⟨q, [], []⟩ =
      .ok (.node (s.tree T q), ⟨q + s.words.length - 1, [], []⟩) := by
  obtain ⟨s, as⟩ := s
  obtain ⟨hsh, ha⟩ : s ∈ statements ∧ as.Ok U (places s.items) := hok
  obtain ⟨k1, k2, k3, k4, _⟩ := stmt_facts hsh
  have hlen : (Stmt.mk s as).words.length = (weave s.items as.words).length + 1 := by
    simp [Stmt.words]
  rw [hlen] at hm hN ⊢
  have hs1 : StandAt T q (weave s.items as.words) := StandAt.left hs
  have hs2 : StandAt T (q + (weave s.items as.words).length) [";".toList] := StandAt.right hs
  have hwl := weave_length s.items ha
  obtain ⟨t, h1, h2⟩ := hs2 0 _ rfl
  have hl := litOk_of hU h2 (by decide)
  have hend : Follow U T (q + (weave s.items as.words).length) (.lit ";".toList) loosest := ⟨⟨t, h1, hl⟩, by omega, by decide +kernel⟩
  let ps := parts s.items (as.operands T) q
  let I : Itp := ⟨U, T, posOf s.items (as.operands T) q ++ [q + (weave s.items as.words).length],
    holeOf (Node.empty .Unknown) ps, holesOf ps, 0, true, []⟩
  let w := stmtWindow s
  have hsi : stmtInl s.items = 12 ∧ 4 ≤ toks s.items ∨ stmtInl s.items = 8 ∧ 2 ≤ toks s.items ∨ stmtInl s.items = 4 := by
    unfold stmtInl
    split
    · exact .inl ⟨rfl, by assumption⟩
    · split
      · exact .inr (.inl ⟨rfl, by assumption⟩)
      · exact .inr (.inr rfl)
  have hL : Lay U T I.H I.V fuel (4 * ((weave s.items as.words).length + 1) - stmtInl s.items) w.cells I.pos := by
    refine lay_items hU (List.mem_singleton.2 rfl) hend s.items as 1 q ha (args_good hU hnc hA hF as) k1 hs1 rfl ?_
      (.inr ⟨by decide, rfl⟩) ?_ ?_ ?_
    · intro bd hbd
      exact ⟨open_le s.items k1 bd hbd, lastCloses_loosest as ha, by decide⟩
    · intro j; rw [Nat.add_comm]; rfl
    · intro j; rw [Nat.add_comm]; rfl
    · exact deep_of (m := (as.words.map List.length).sum) s.items _ (Nat.le_refl _) (by omega) (.inl (by omega))
  have hV : View w I := view_of (I := I) hnc hA hL (fun b h => by cases h) (fun h => by cases h) (Nat.zero_le _)
    (Nat.le_refl _) (by rfl)
  have hF' : rounds ≤ fuel := by have : rounds = 4 := rfl; omega
  have h0 : I.at_ 0 = q := by
    have := head_pos (T := T) (q := q) ha
    rw [List.head?_eq_getElem?] at this
    show (posOf s.items (as.operands T) q ++ [q + (weave s.items as.words).length]).getD 0 0 = q
    rw [List.getD_eq_getElem?_getD, this]
    rfl
  have hchk := stmts_ok s hsh
  unfold checkStmt at hchk
  dsimp only at hchk
  split at hchk
  case h_2 => cases hchk
  rename_i tm i hac
  simp only [Bool.and_eq_true, beq_iff_eq] at hchk
  obtain ⟨c1, c2⟩ := hchk
  obtain ⟨v, g1, g2⟩ := call_sound hV hF' (gapOk_of hL) (stmtInl s.items) N (by omega) .parse_statement [.bool true] [.bool true] 0 _
    ⟨rfl, trivial⟩ hac
  have hcells : (posOf s.items (as.operands T) q).length + 1 = w.cells.length := by
    rw [← hL.length]
    simp [I]
  have hi : I.at_ i = q + (weave s.items as.words).length := by
    show (posOf s.items (as.operands T) q ++ [q + (weave s.items as.words).length]).getD i 0 = _
    rw [List.getD_eq_getElem?_getD, List.getElem?_append_right (by rw [c2]; show _ ≤ w.cells.length - 1; omega)]
    rw [show i - (posOf s.items (as.operands T) q).length = 0 by rw [c2]; show w.cells.length - 1 - _ = 0; omega]
    rfl
  have htree : ((termOf s.items 0 s.node).ev I).1 = s.node.tree T (Node.empty .Unknown) ps := by
    refine term_tree (I := I) (left := Node.empty .Unknown) (ps := ps) rfl rfl ?_ s.node k3
    intro j hj
    rw [Nat.zero_add]
    exact pos_item (T := T) (q := q) ha hj
  have hv : v = .node ((tm.ev I).1) := g2
  rw [hv] at g1
  have hps0 : I.ps 0 = ⟨q, [], []⟩ := by unfold Itp.ps; rw [h0]
  have hpsi : I.ps i = ⟨q + ((weave s.items as.words).length + 1) - 1, [], []⟩ := by unfold Itp.ps; rw [hi]; congr 1
  rw [← hps0, ← hpsi]
  refine g1.trans ?_
  congr 3
  rw [← Term.ev_norm, c1]
  show (((termOf s.items 0 s.node).ev I).1).pushNode .k_semicolon (Node.new (I.tok i) .Symbol) = _
  rw [htree]
  unfold Stmt.tree Itp.tok
  rw [hi]

include hnc in
theorem next_plain {j : Nat} (hj : j + 1 < T.length) : nextToken T ⟨j, [], []⟩ = .ok ⟨j + 1, [], []⟩ := by
  have hoff : ∀ {q : Nat}, q + 1 < T.length → getOffsetIndex T ⟨q, [], []⟩ 1 = .ok (q + 1) := by
    intro q h
    unfold getOffsetIndex
    rw [if_neg (by omega), List.drop_eq_getElem_cons h]
    simp [scanFrom, hnc T[q + 1] (List.getElem_mem h)]
  unfold nextToken
  rw [hoff hj]
  simp only [List.getLast?_nil, range, Nat.sub_self, List.range'_zero]
  by_cases h : j + 1 + 1 < T.length
  · rw [hoff h]
    simp only [tokAt, List.getElem?_eq_getElem hj, Cut.trailing_self]
  · have : getOffsetIndex T ⟨j + 1, [], []⟩ 1 = match T.getLast? with
      | some t => .err ⟨t.line, t.column, .followedByEof⟩
      | none => .panic .index := by
      unfold getOffsetIndex
      rw [if_neg (by omega), List.drop_eq_nil_of_le (by simp only; omega)]
      rfl
    rw [this]
    cases T.getLast? <;> rfl

include hU hnc hA hF in
/-- The statements from `q` on are parsed. -/
theorem loop_script : ∀ (ss : List Stmt) (q k : Nat) (acc : List Node), (∀ s ∈ ss, s.Ok U) →
    StandAt T q (ss.flatMap Stmt.words) → q + (ss.flatMap Stmt.words).length + 1 = T.length → ss.length + 1 ≤ k →
    parseLoop U T fuel (4 * T.length) k ⟨q, [], []⟩ acc = .ok (acc ++ scriptTrees T ss q ++ [Node.empty .EOF])
  | [], q, k, acc, _, _, he, hk => by
    obtain ⟨k, rfl⟩ : ∃ m, k = m + 1 := ⟨k - 1, by omega⟩
    simp only [List.flatMap_nil, List.length_nil, Nat.add_zero] at he
    have heof : isEof T ⟨q, [], []⟩ 0 = true := by
      unfold isEof getOffsetIndex
      simp only [if_true, decide_eq_true_eq]
      omega
    have ht : T[q]? = some T[q] := List.getElem?_eq_getElem (by omega)
    have hc : construct U T ⟨q, [], []⟩ .EOF = .ok (Node.empty .EOF) := by
      unfold construct getToken
      rw [show getOffsetIndex T ⟨q, [], []⟩ 0 = .ok q from rfl]
      simp only [tokAt, ht, if_true]
      exact Cut.attach_nil _ _ _
    rw [parseLoop, heof]
    simp only [if_true]
    rw [hc]
    simp only [scriptTrees, List.append_nil]
    rfl
  | s :: ss, q, k, acc, hok, hs, he, hk => by
    obtain ⟨k, rfl⟩ : ∃ m, k = m + 1 := ⟨k - 1, by omega⟩
    simp only [List.flatMap_cons, List.length_append, List.length_cons] at hs he hk
    have hw : 1 ≤ s.words.length := by simp [Stmt.words]
    have heof : isEof T ⟨q, [], []⟩ 0 = false := by
      unfold isEof getOffsetIndex
      simp only [if_true, decide_eq_false_iff_not]
      omega
    have h1 := call_stmt hU hnc hA hF s (hok s (by simp)) (StandAt.left hs) (by omega) (N := 4 * T.length) (by omega)
    have h2 : nextToken T ⟨q + s.words.length - 1, [], []⟩ = .ok ⟨q + s.words.length, [], []⟩ := by
      have := next_plain hnc (j := q + s.words.length - 1) (by omega)
      rw [show q + s.words.length - 1 + 1 = q + s.words.length by omega] at this
      exact this
    rw [Slow.parseLoop_step heof h1 h2]
    rw [loop_script ss (q + s.words.length) k _ (fun s h => hok s (by simp [h])) (StandAt.right hs) (by omega) (by omega)]
    simp only [scriptTrees, List.append_assoc, List.singleton_append]
end

/-- A script gives its trees. -/
theorem parse_script {U : Unicode} (hU : U.Lawful) {ss : List Stmt} (hok : ∀ s ∈ ss, s.Ok U) {body : List Token}
    (hb : body.map (·.literal) = ss.flatMap Stmt.words)
    (hA : Lex.Apart (body ++ [Token.eof])) :
    parseTokens U (body ++ [Token.eof]) = .ok (scriptTrees (body ++ [Token.eof]) ss 0 ++ [Node.empty .EOF]) := by
  generalize hT : body ++ [Token.eof] = T at hA ⊢
  have hbl : body.length = (ss.flatMap Stmt.words).length := by
    rw [← List.length_map (f := (·.literal)), hb]
  have hTl : T.length = (ss.flatMap Stmt.words).length + 1 := by rw [← hT]; simp [hbl]
  have hnc : ∀ t ∈ T, t.isComment = false := by
    intro t ht
    rw [← hT] at ht
    rcases List.mem_append.1 ht with h | h
    · have : t.literal ∈ ss.flatMap Stmt.words := by rw [← hb]; exact List.mem_map_of_mem h
      obtain ⟨s, h1, h2⟩ := List.mem_flatMap.1 this
      exact plain_stmt (hok s h1) _ h2
    · simp at h; subst h; rfl
  have hst : StandAt T 0 (ss.flatMap Stmt.words) := by
    intro j l hl
    rw [← hb, List.getElem?_map] at hl
    cases hj : body[j]? with
    | none => rw [hj] at hl; cases hl
    | some t =>
      rw [hj] at hl
      cases hl
      have := (List.getElem?_eq_some_iff.1 hj).1
      exact ⟨t, by rw [← hT, Nat.zero_add, List.getElem?_append_left this]; exact hj, rfl⟩
  have hnew : Core.new T = .ok ⟨0, [], []⟩ := by
    have hl0 : leadingComments T = 0 := by
      cases T with
      | nil => rfl
      | cons t ts => simp [leadingComments, hnc t (by simp)]
    unfold Core.new
    simp only [hl0]
    rw [List.getElem?_eq_getElem (by omega)]
    simp only
    split
    · rfl
    · have h1 : 0 + 1 < T.length := by omega
      rw [List.drop_eq_getElem_cons h1]
      simp [trailingNew, hnc T[0 + 1] (List.getElem_mem h1), range]
  have hlen : ss.length ≤ (ss.flatMap Stmt.words).length := by
    clear hb hbl hTl hst hok
    induction ss with
    | nil => simp
    | cons s ss ih =>
      have hw : 1 ≤ s.words.length := by simp [Stmt.words]
      simp only [List.flatMap_cons, List.length_append, List.length_cons]
      omega
  unfold parseTokens parseTokensWith
  rw [hnew]
  show parseLoop U T (T.length + 1) (4 * T.length) (T.length + 1) ⟨0, [], []⟩ [] = _
  rw [loop_script hU hnc hA (Nat.le_refl _) ss 0 (T.length + 1) [] hok hst (by omega) (by omega)]
  rfl

end Verif.Sym
