import Verif.Proofs.BlockLabel
/-! Scripts with statements in statements give their trees. -/
namespace Verif.Sym
open Core Interp Spec
open Slow (StandAt)

section
variable {U : Unicode} (hU : U.Lawful) {T : List Token} (hnc : ∀ t ∈ T, t.isComment = false) (hA : Lex.Apart T) {fuel : Nat}
  (hF : T.length + 1 ≤ fuel)
include hU hnc hA hF

mutual
theorem block_good : ∀ b : Block, BlockCall U T fuel b
  | .stmt s => fun q hok hs hm N hN => call_stmt hU hnc hA hF s hok (by rw [Block.words] at hs; exact hs)
      (by rw [Block.words] at hm; exact hm) (by rw [Block.words] at hN; exact hN)
  | .loop n b => good_loop hU hnc hA hF n b (blocks_good b)
  | .rep n b e => good_rep hU hnc hA hF n b e (blocks_good b)
  | .while n e b => good_while hU hnc hA hF n e b (blocks_good b)
  | .begin b => good_begin hU hnc hA hF b (blocks_good b)
  | .catch b h => good_catch hU hnc hA hF b h (blocks_good b) (blocks_good h)
  | .if e b br => good_if hU hnc hA hF e b br (blocks_good b) (branches_good br)
  | .ifElse e b br c => good_ifElse hU hnc hA hF e b br c (blocks_good b) (branches_good br) (blocks_good c)
  | .case e br => good_case hU hnc hA hF e br (branches_good br)
  | .caseElse e br c => good_caseElse hU hnc hA hF e br c (branches_good br) (blocks_good c)
  | .for s as b => good_for hU hnc hA hF s as b (blocks_good b)
theorem blocks_good : ∀ bs : Blocks, BlocksGood U T fuel bs
  | .nil => trivial
  | .cons b bs => ⟨block_good b, blocks_good bs⟩
theorem branches_good : ∀ br : Branches, BranchesGood U T fuel br
  | .nil => trivial
  | .cons _ b br => ⟨blocks_good b, branches_good br⟩
end

/-- The statements from `q` on are parsed. -/
theorem loop_blocks : ∀ (bs : Blocks) (q k : Nat) (acc : List Node), bs.Ok U →
    StandAt T q bs.words → q + bs.words.length + 1 = T.length → bs.words.length + 1 ≤ k →
    parseLoop U T fuel (4 * T.length) k ⟨q, [], []⟩ acc = .ok (acc ++ bs.trees T q ++ [Node.empty .EOF])
  | .nil, q, k, acc, _, _, he, hk => by
    simp only [Blocks.words, List.length_nil] at he
    have := loop_script hU hnc hA hF [] q k acc (by simp) (by intro j l h; simp at h) (by simpa using he)
      (by simpa [Blocks.words] using hk)
    simpa [Blocks.trees, scriptTrees] using this
  | .cons b bs, q, k, acc, hok, hs, he, hk => by
    obtain ⟨k, rfl⟩ : ∃ m, k = m + 1 := ⟨k - 1, by omega⟩
    obtain ⟨l, r, hh, _⟩ := block_head hok.1
    simp only [Blocks.words, List.length_append] at hs he hk
    have hw : 1 ≤ b.words.length := by rw [hh]; simp
    have heof : isEof T ⟨q, [], []⟩ 0 = false := by
      unfold isEof getOffsetIndex
      simp only [if_true, decide_eq_false_iff_not]
      omega
    have h1 := block_good hU hnc hA hF b q hok.1 (StandAt.left hs) (by omega) (4 * T.length) (by omega)
    have h2 : nextToken T ⟨q + b.words.length - 1, [], []⟩ = .ok ⟨q + b.words.length, [], []⟩ := by
      have := next_plain hnc (j := q + b.words.length - 1) (by omega)
      rw [show q + b.words.length - 1 + 1 = q + b.words.length by omega] at this
      exact this
    rw [Slow.parseLoop_step heof h1 h2]
    rw [loop_blocks bs (q + b.words.length) k _ hok.2 (StandAt.right hs) (by omega) (by omega)]
    simp only [Blocks.trees, List.append_assoc, List.singleton_append]
end

section
variable {U : Unicode} {P : Str → Prop} (hA : ∀ l ty, AtomIs U l ty → P l) (hV : ∀ l ∈ vocab, P l)
include hA hV

theorem all_opt (e : Option Ex) (h : ∀ x, e = some x → x.Ok U loosest) : ∀ l ∈ optWords e, P l := by
  cases e with
  | none => simp [optWords]
  | some e => exact all_ex hA hV e (h e rfl)

theorem all_label {n : Label} (h : n.Ok U) : (∀ l ∈ n.before, P l) ∧ ∀ l ∈ n.after, P l := by
  have hc := hV _ colon_vocab
  cases n with
  | none => simp [Label.before, Label.after]
  | lead a =>
    have h1 := hA _ _ (show AtomIs U a .Identifier from h)
    refine ⟨?_, by simp [Label.after]⟩
    simp only [Label.before, List.forall_mem_cons]
    exact ⟨h1, hc, by simp⟩
  | both a m =>
    have h1 := hA _ _ (show AtomIs U a .Identifier ∧ _ from h).1
    have h2 := hA _ _ (show AtomIs U a .Identifier ∧ _ from h).2
    refine ⟨?_, by simpa [Label.after] using h2⟩
    simp only [Label.before, List.forall_mem_cons]
    exact ⟨h1, hc, by simp⟩

mutual
theorem all_block : ∀ (b : Block), b.Ok U → ∀ l ∈ b.words, P l
  | .stmt s, h => by
    intro l hl
    rw [Block.words] at hl
    exact all_stmt hA hV h l hl
  | .loop n b, h => by
    have hb := all_blocks b h.2
    have hn := all_label hA hV h.1
    simp only [Block.words, List.forall_mem_cons, List.forall_mem_append]
    exact ⟨hn.1, ⟨hV _ (by decide), hb, hV _ (by decide), hV _ (by decide), by simp⟩, hn.2, hV _ (by decide), by simp⟩
  | .rep n b e, h => by
    have hb := all_blocks b h.2.1
    have he := all_ex hA hV e h.2.2
    have hn := all_label hA hV h.1
    simp only [Block.words, List.forall_mem_cons, List.forall_mem_append]
    exact ⟨hn.1, ⟨hV _ (by decide), hb, hV _ (by decide), he, hV _ (by decide), hV _ (by decide), by simp⟩, hn.2,
      hV _ (by decide), by simp⟩
  | .while n e b, h => by
    have hb := all_blocks b h.2.2
    have he := all_ex hA hV e h.2.1
    have hn := all_label hA hV h.1
    simp only [Block.words, List.forall_mem_cons, List.forall_mem_append]
    exact ⟨hn.1, ⟨hV _ (by decide), he, hV _ (by decide), hb, hV _ (by decide), hV _ (by decide), by simp⟩, hn.2,
      hV _ (by decide), by simp⟩
  | .begin b, h => by
    have hb := all_blocks b h
    simp only [Block.words, List.forall_mem_cons, List.forall_mem_append]
    exact ⟨hV _ (by decide), hb, hV _ (by decide), hV _ (by decide), by simp⟩
  | .catch b c, h => by
    have hb := all_blocks b h.1
    have hc := all_blocks c h.2
    simp only [Block.words, List.forall_mem_cons, List.forall_mem_append]
    exact ⟨hV _ (by decide), hb, hV _ (by decide), hV _ (by decide), hV _ (by decide), hV _ (by decide), hc, hV _ (by decide),
      hV _ (by decide), by simp⟩
  | .if e b br, h => by
    have he := all_ex hA hV e h.1
    have hb := all_blocks b h.2.1
    have hr := all_branches br h.2.2
    simp only [Block.words, List.forall_mem_cons, List.forall_mem_append]
    exact ⟨hV _ (by decide), he, hV _ (by decide), hb, hr, hV _ (by decide), hV _ (by decide), hV _ (by decide), by simp⟩
  | .ifElse e b br c, h => by
    have he := all_ex hA hV e h.1
    have hb := all_blocks b h.2.1
    have hr := all_branches br h.2.2.1
    have hc := all_blocks c h.2.2.2
    simp only [Block.words, List.forall_mem_cons, List.forall_mem_append]
    exact ⟨hV _ (by decide), he, hV _ (by decide), hb, hr, hV _ (by decide), hc, hV _ (by decide), hV _ (by decide),
      hV _ (by decide), by simp⟩
  | .case e br, h => by
    have he := all_opt hA hV e h.1
    have hr := all_arms br h.2.2
    simp only [Block.words, List.forall_mem_cons, List.forall_mem_append]
    exact ⟨hV _ (by decide), he, hr, hV _ (by decide), hV _ (by decide), hV _ (by decide), by simp⟩
  | .caseElse e br c, h => by
    have he := all_opt hA hV e h.1
    have hr := all_arms br h.2.2.1
    have hc := all_blocks c h.2.2.2
    simp only [Block.words, List.forall_mem_cons, List.forall_mem_append]
    exact ⟨hV _ (by decide), he, hr, hV _ (by decide), hc, hV _ (by decide), hV _ (by decide), hV _ (by decide), by simp⟩
  | .for s as b, h => by
    have hw := all_weave hV s.items _ (for_facts h.1).1 (all_args hA hV as h.2.1)
    have hb := all_blocks b h.2.2
    simp only [Block.words, List.forall_mem_cons, List.forall_mem_append]
    exact ⟨hw, hV _ (by decide), hb, hV _ (by decide), hV _ for_vocab, hV _ (by decide), by simp⟩
theorem all_blocks : ∀ (bs : Blocks), bs.Ok U → ∀ l ∈ bs.words, P l
  | .nil, _ => by simp [Blocks.words]
  | .cons b bs, h => by
    have hb := all_block b h.1
    have hbs := all_blocks bs h.2
    simp only [Blocks.words, List.forall_mem_append]
    exact ⟨hb, hbs⟩
theorem all_branches : ∀ (br : Branches), br.Ok U → ∀ l ∈ br.words, P l
  | .nil, _ => by simp [Branches.words]
  | .cons e b br, h => by
    have he := all_ex hA hV e h.1
    have hb := all_blocks b h.2.1
    have hr := all_branches br h.2.2
    simp only [Branches.words, List.forall_mem_cons, List.forall_mem_append]
    exact ⟨hV _ (by decide), he, hV _ (by decide), hb, hr⟩
theorem all_arms : ∀ (br : Branches), br.Ok U → ∀ l ∈ br.armWords, P l
  | .nil, _ => by simp [Branches.armWords]
  | .cons e b br, h => by
    have he := all_ex hA hV e h.1
    have hb := all_blocks b h.2.1
    have hr := all_arms br h.2.2
    simp only [Branches.armWords, List.forall_mem_cons, List.forall_mem_append]
    exact ⟨hV _ (by decide), he, hV _ (by decide), hb, hr⟩
end
end

/-- A script gives its trees. -/
theorem parse_blocks {U : Unicode} (hU : U.Lawful) {bs : Blocks} (hok : bs.Ok U) {body : List Token}
    (hb : body.map (·.literal) = bs.words) (hA : Lex.Apart (body ++ [Token.eof])) :
    parseTokens U (body ++ [Token.eof]) = .ok (bs.trees (body ++ [Token.eof]) 0 ++ [Node.empty .EOF]) := by
  generalize hT : body ++ [Token.eof] = T at hA ⊢
  have hbl : body.length = bs.words.length := by
    rw [← List.length_map (f := (·.literal)), hb]
  have hTl : T.length = bs.words.length + 1 := by rw [← hT]; simp [hbl]
  have hnc : ∀ t ∈ T, t.isComment = false := by
    intro t ht
    rw [← hT] at ht
    rcases List.mem_append.1 ht with h | h
    · have : t.literal ∈ bs.words := by rw [← hb]; exact List.mem_map_of_mem h
      exact all_blocks (P := Plain) (fun _ _ h => plain_atom h) plain_vocab bs hok _ this
    · simp at h; subst h; rfl
  have hst : StandAt T 0 bs.words := by
    intro j l hl
    rw [← hb, List.getElem?_map] at hl
    cases hj : body[j]? with
    | none => rw [hj] at hl; cases hl
    | some t =>
      rw [hj] at hl
      cases hl
      have := (List.getElem?_eq_some_iff.1 hj).1
      exact ⟨t, by rw [← hT, Nat.zero_add, List.getElem?_append_left this]; exact hj, rfl⟩
  have hnew : Core.new T = .ok ⟨0, [], []⟩ := by
    have hl0 : leadingComments T = 0 := by
      cases T with
      | nil => rfl
      | cons t ts => simp [leadingComments, hnc t (by simp)]
    unfold Core.new
    simp only [hl0]
    rw [List.getElem?_eq_getElem (by omega)]
    simp only
    split
    · rfl
    · have h1 : 0 + 1 < T.length := by omega
      rw [List.drop_eq_getElem_cons h1]
      simp [trailingNew, hnc T[0 + 1] (List.getElem_mem h1), range]
  unfold parseTokens parseTokensWith
  rw [hnew]
  show parseLoop U T (T.length + 1) (4 * T.length) (T.length + 1) ⟨0, [], []⟩ [] = _
  rw [loop_blocks hU hnc hA (Nat.le_refl _) bs 0 (T.length + 1) [] hok hst (by omega) (by omega)]
  rfl

end Verif.Sym
