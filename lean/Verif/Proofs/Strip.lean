import Verif.Proofs.Reloc2
/-! Removal of comment tokens (C19). -/
namespace Verif
open Core Interp Spec

/-- No comment. -/
abbrev nc (t : Token) : Bool := !t.isComment

section Trees

/-- Keys other than the two comment keys. -/
def Static.noComments : Static where
  raw _ := true
  chr _ := true
  key k := k != .k_leading_comments && k != .k_trailing_comments

theorem okBy_noComments : ∀ f ∈ Fn.all, (Program.defs f).body.okBy .noComments = true := by
  decide +kernel

theorem key_noComments {k : Key} (h : Static.noComments.key k = true) :
    ¬ (k = .k_leading_comments ∨ k = .k_trailing_comments) := by
  simp [Static.noComments] at h
  tauto

theorem strip_keys (ks : Kids) (k : Key) (h : Static.noComments.key k = true) :
    k ∈ (stripKids ks).keys ↔ k ∈ ks.keys := by
  have hk := key_noComments h
  refine Kids.rec (motive_1 := fun _ => True)
    (motive_2 := fun ks => k ∈ (stripKids ks).keys ↔ k ∈ ks.keys)
    (motive_3 := fun _ => True) (by intros; trivial) ?_ ?_ ?_ trivial (by intros; trivial) ks
  · simp [stripKids]
  · intro k' n r _ ih
    simp only [stripKids]
    split
    · rw [ih]
      simp only [Kids.keys, List.mem_cons]
      refine ⟨.inr, fun h => h.resolve_left ?_⟩
      rintro rfl; tauto
    · simp only [Kids.keys, List.mem_cons, ih]
  · intro k' n r _ ih
    simp only [stripKids]
    split
    · rw [ih]
      simp only [Kids.keys, List.mem_cons]
      refine ⟨.inr, fun h => h.resolve_left ?_⟩
      rintro rfl; tauto
    · simp only [Kids.keys, List.mem_cons, ih]

theorem strip_insertOne (ks : Kids) (k : Key) (c : Node) (h : Static.noComments.key k = true) :
    stripKids (ks.insertOne k c) = (stripKids ks).insertOne k (stripComments c) := by
  have hk := key_noComments h
  refine Kids.rec (motive_1 := fun _ => True)
    (motive_2 := fun ks => stripKids (ks.insertOne k c) = (stripKids ks).insertOne k (stripComments c))
    (motive_3 := fun _ => True) (by intros; trivial) ?_ ?_ ?_ trivial (by intros; trivial) ks
  · simp only [Kids.insertOne, stripKids, if_neg hk]
  · intro k' n r _ ih
    by_cases hkk : k = k'
    · subst hkk
      simp only [Kids.insertOne, stripKids, if_neg hk, if_true]
    · simp only [Kids.insertOne, stripKids, if_neg hkk]
      split
      · exact ih
      · simp only [Kids.insertOne, if_neg hkk, ih]
  · intro k' n r _ ih
    by_cases hkk : k = k'
    · subst hkk
      simp only [Kids.insertOne, stripKids, if_neg hk, if_true]
    · simp only [Kids.insertOne, stripKids, if_neg hkk]
      split
      · exact ih
      · simp only [Kids.insertOne, if_neg hkk, ih]

theorem strip_insertMany (ks : Kids) (k : Key) (c : Nodes) (h : Static.noComments.key k = true) :
    stripKids (ks.insertMany k c) = (stripKids ks).insertMany k (stripList c) := by
  have hk := key_noComments h
  refine Kids.rec (motive_1 := fun _ => True)
    (motive_2 := fun ks => stripKids (ks.insertMany k c) = (stripKids ks).insertMany k (stripList c))
    (motive_3 := fun _ => True) (by intros; trivial) ?_ ?_ ?_ trivial (by intros; trivial) ks
  · simp only [Kids.insertMany, stripKids, if_neg hk]
  · intro k' n r _ ih
    by_cases hkk : k = k'
    · subst hkk
      simp only [Kids.insertMany, stripKids, if_neg hk, if_true]
    · simp only [Kids.insertMany, stripKids, if_neg hkk]
      split
      · exact ih
      · simp only [Kids.insertMany, if_neg hkk, ih]
  · intro k' n r _ ih
    by_cases hkk : k = k'
    · subst hkk
      simp only [Kids.insertMany, stripKids, if_neg hk, if_true]
    · simp only [Kids.insertMany, stripKids, if_neg hkk]
      split
      · exact ih
      · simp only [Kids.insertMany, if_neg hkk, ih]

theorem strip_insert_comments (ks : Kids) (k : Key) (c : Nodes)
    (hk : k = .k_leading_comments ∨ k = .k_trailing_comments) :
    stripKids (ks.insertMany k c) = stripKids ks := by
  refine Kids.rec (motive_1 := fun _ => True)
    (motive_2 := fun ks => stripKids (ks.insertMany k c) = stripKids ks)
    (motive_3 := fun _ => True) (by intros; trivial) ?_ ?_ ?_ trivial (by intros; trivial) ks
  · simp only [Kids.insertMany, stripKids, if_pos hk]
  · intro k' n r _ ih
    by_cases hkk : k = k'
    · subst hkk
      simp only [Kids.insertMany, stripKids, if_pos hk, if_true]
    · simp only [Kids.insertMany, stripKids, if_neg hkk, ih]
  · intro k' n r _ ih
    by_cases hkk : k = k'
    · subst hkk
      simp only [Kids.insertMany, stripKids, if_pos hk, if_true]
    · simp only [Kids.insertMany, stripKids, if_neg hkk, ih]

theorem strip_tok (n : Node) : (stripComments n).tok = n.tok := by cases n; simp [stripComments, Node.tok]
theorem strip_ty (n : Node) : (stripComments n).ty = n.ty := by cases n; simp [stripComments, Node.ty]
theorem strip_kids (n : Node) : (stripComments n).kids = stripKids n.kids := by
  cases n; simp [stripComments, Node.kids]

theorem strip_pushNode (n c : Node) (k : Key) (h : Static.noComments.key k = true) :
    stripComments (n.pushNode k c) = (stripComments n).pushNode k (stripComments c) := by
  simp only [Node.pushNode, stripComments, strip_tok, strip_ty, strip_kids, strip_insertOne _ _ _ h]

theorem stripList_ofList (cs : List Node) :
    stripList (Nodes.ofList cs) = Nodes.ofList (cs.map stripComments) := by
  induction cs with
  | nil => simp [Nodes.ofList, stripList]
  | cons c cs ih => simp [Nodes.ofList, stripList, ih]

theorem strip_pushVec (n : Node) (cs : List Node) (k : Key) (h : Static.noComments.key k = true) :
    stripComments (n.pushVec k cs) = (stripComments n).pushVec k (cs.map stripComments) := by
  simp only [Node.pushVec, stripComments, strip_tok, strip_ty, strip_kids, strip_insertMany _ _ _ h,
    stripList_ofList]

theorem strip_pushComments (n : Node) (cs : List Node) (k : Key)
    (h : k = .k_leading_comments ∨ k = .k_trailing_comments) :
    stripComments (n.pushVec k cs) = stripComments n := by
  cases n
  simp only [Node.pushVec, stripComments, Node.tok, Node.ty, Node.kids, strip_insert_comments _ _ _ h]

theorem strip_setType (n : Node) (nt : NodeType) :
    stripComments (n.setType nt) = (stripComments n).setType nt := by
  simp only [Node.setType, stripComments, strip_tok, strip_kids]

theorem strip_leftmost (n : Node) : (stripComments n).leftmostType = n.leftmostType := by
  refine Node.rec (motive_1 := fun n => (stripComments n).leftmostType = n.leftmostType)
    (motive_2 := fun ks => ∀ d, Node.leftmostType.kidsLeftmost d (stripKids ks) =
      Node.leftmostType.kidsLeftmost d ks)
    (motive_3 := fun _ => True) ?_ ?_ ?_ ?_ trivial (by intros; trivial) n
  · intro t ty ks ih
    simp only [stripComments, Node.leftmostType, ih]
  · intro d; simp only [stripKids]
  · intro k n r ih1 ih2 d
    simp only [stripKids]
    split
    · rename_i hk
      rw [ih2]
      have : k ≠ .k_left := by rcases hk with rfl | rfl <;> decide
      simp only [Node.leftmostType.kidsLeftmost, if_neg this]
    · simp only [Node.leftmostType.kidsLeftmost, ih1, ih2]
  · intro k n r ih1 ih2 d
    simp only [stripKids]
    split
    · rename_i hk
      rw [ih2]
      have : k ≠ .k_left := by rcases hk with rfl | rfl <;> decide
      simp only [Node.leftmostType.kidsLeftmost, if_neg this]
    · simp only [Node.leftmostType.kidsLeftmost, ih2]
end Trees

section Tokens

/-- The number of tokens other than comments before an index. -/
def nth (toks : List Token) (i : Nat) : Nat := ((toks.take i).filter nc).length

theorem drop_nth (toks : List Token) (i : Nat) :
    (toks.filter nc).drop (nth toks i) = (toks.drop i).filter nc := by
  have h : toks.filter nc = (toks.take i).filter nc ++ (toks.drop i).filter nc := by
    rw [← List.filter_append, List.take_append_drop]
  rw [h, nth, List.drop_left]

theorem nth_succ {toks : List Token} {i : Nat} {t : Token} (h : toks[i]? = some t)
    (ht : t.isComment = false) : nth toks (i + 1) = nth toks i + 1 := by
  simp only [nth]
  rw [List.take_add_one, h]
  simp [ht]

theorem get_nth {toks : List Token} {i : Nat} {t : Token} (h : toks[i]? = some t)
    (ht : t.isComment = false) : (toks.filter nc)[nth toks i]? = some t := by
  have h1 : ((toks.filter nc).drop (nth toks i))[0]? = some t := by
    rw [drop_nth]
    obtain ⟨hl, he⟩ := List.getElem?_eq_some_iff.1 h
    rw [List.drop_eq_getElem_cons hl, he]
    simp [ht]
  rw [List.getElem?_drop] at h1
  simpa using h1

theorem nth_add (toks : List Token) (i j : Nat) :
    nth toks (i + j) = nth toks i + (((toks.drop i).take j).filter nc).length := by
  simp only [nth]
  rw [List.take_add, List.filter_append, List.length_append]

theorem nth_mono (toks : List Token) {i j : Nat} (h : i ≤ j) : nth toks i ≤ nth toks j := by
  obtain ⟨k, rfl⟩ := Nat.le.dest h
  rw [nth_add]; omega

theorem nth_length (toks : List Token) : nth toks toks.length = (toks.filter nc).length := by
  simp [nth]

theorem scanFrom_filter (offset : Nat) (ts : List Token) (cnt idx idx' : Nat) :
    (∀ i, scanFrom offset cnt idx ts = some i →
      scanFrom offset cnt idx' (ts.filter nc) = some (idx' + ((ts.take (i - idx)).filter nc).length)) ∧
    (scanFrom offset cnt idx ts = none → scanFrom offset cnt idx' (ts.filter nc) = none) := by
  induction ts generalizing cnt idx idx' with
  | nil => simp [scanFrom]
  | cons t ts ih =>
    by_cases ht : t.isComment = true
    · rw [List.filter_cons_of_neg (by simp [ht])]
      simp only [scanFrom, ht, if_true]
      obtain ⟨h1, h2⟩ := ih cnt (idx + 1) idx'
      refine ⟨fun i hi => ?_, h2⟩
      rw [h1 i hi]
      have := (scanFrom_spec _ _ _ _ _ hi).1
      rw [show i - idx = (i - (idx + 1)) + 1 by omega]
      simp [ht]
    · rw [List.filter_cons_of_pos (by simp [ht])]
      simp only [scanFrom, ht, if_false, Bool.false_eq_true]
      split
      · refine ⟨fun i hi => ?_, fun h => by cases h⟩
        cases hi
        simp
      · obtain ⟨h1, h2⟩ := ih (cnt + 1) (idx + 1) (idx' + 1)
        refine ⟨fun i hi => ?_, h2⟩
        rw [h1 i hi]
        have := (scanFrom_spec _ _ _ _ _ hi).1
        rw [show i - idx = (i - (idx + 1)) + 1 by omega]
        simp [ht]
        omega

variable {toks : List Token} {e : Token} (hl : toks.getLast? = some e) (he : e.isComment = false)

/-- Related states: the second run has no comments and stands at the same token. -/
structure Strip (toks : List Token) (s s' : PS) : Prop where
  ok : s.Ok toks
  tok : ∃ t, toks[s.pos]? = some t ∧ t.isComment = false
  eq : s' = ⟨nth toks s.pos, [], []⟩

include hl he

theorem last_filter : (toks.filter nc).getLast? = some e := by
  obtain ⟨ys, rfl⟩ := List.getLast?_eq_some_iff.1 hl
  simp [List.filter_append, he]

theorem Strip.offset {s s' : PS} (h : Strip toks s s') (n : Nat) :
    (∃ i t, getOffsetIndex toks s n = .ok i ∧ getOffsetIndex (toks.filter nc) s' n = .ok (nth toks i) ∧
      toks[i]? = some t ∧ t.isComment = false) ∨
    (getOffsetIndex toks s n = .err ⟨e.line, e.column, .followedByEof⟩ ∧
      getOffsetIndex (toks.filter nc) s' n = .err ⟨e.line, e.column, .followedByEof⟩) := by
  obtain ⟨t, ht, htc⟩ := h.tok
  rw [h.eq]
  by_cases hn : n = 0
  · subst hn
    exact .inl ⟨s.pos, t, by simp [getOffsetIndex], by simp [getOffsetIndex], ht, htc⟩
  · have h0 : ((toks.filter nc).drop (nth toks s.pos + 1)) = (toks.drop (s.pos + 1)).filter nc := by
      rw [← nth_succ ht htc, drop_nth]
    obtain ⟨h1, h2⟩ := scanFrom_filter n (toks.drop (s.pos + 1)) 0 (s.pos + 1) (nth toks s.pos + 1)
    unfold getOffsetIndex
    rw [if_neg hn, if_neg hn]
    dsimp only
    rw [h0]
    cases hsc : scanFrom n 0 (s.pos + 1) (toks.drop (s.pos + 1)) with
    | some i =>
      left
      obtain ⟨h3, h4, _, u, h5, h6⟩ := scanFrom_spec _ _ _ _ _ hsc
      refine ⟨i, u, rfl, ?_, ?_, h6⟩
      · rw [h1 i hsc]
        dsimp only
        congr 1
        rw [← nth_succ ht htc, ← nth_add]
        congr 1
        omega
      · rw [List.getElem?_drop, show s.pos + 1 + (i - (s.pos + 1)) = i by omega] at h5
        exact h5
    | none =>
      right
      rw [h2 hsc, hl, last_filter hl he]
      exact ⟨rfl, rfl⟩

theorem Strip.token {s s' : PS} (h : Strip toks s s') (n : Nat) :
    getToken toks s n = getToken (toks.filter nc) s' n ∧
      (∀ e, getToken toks s n ≠ .panic e) := by
  unfold getToken
  rcases h.offset hl he n with ⟨i, t, h1, h2, h3, h4⟩ | ⟨h1, h2⟩ <;> rw [h1, h2]
  · simp [tokAt, h3, get_nth h3 h4]
  · simp

theorem Strip.isEof {s s' : PS} (h : Strip toks s s') (n : Nat) :
    isEof toks s n = isEof (toks.filter nc) s' n := by
  unfold Core.isEof
  rcases h.offset hl he n with ⟨i, t, h1, h2, h3, h4⟩ | ⟨h1, h2⟩ <;> rw [h1, h2]
  dsimp only
  obtain ⟨hi, _⟩ := List.getElem?_eq_some_iff.1 h3
  have hlast : toks[toks.length - 1]? = some e := by rw [← List.getLast?_eq_getElem?]; exact hl
  have h5 := nth_succ hlast he
  rw [show toks.length - 1 + 1 = toks.length by omega, nth_length] at h5
  have h6 := nth_succ h3 h4
  by_cases hc : toks.length - 1 ≤ i
  · have : i = toks.length - 1 := by omega
    subst this
    simp only [Nat.le_refl, decide_true]
    symm
    rw [decide_eq_true_eq]
    omega
  · have h7 := nth_mono toks (show i + 1 ≤ toks.length - 1 by omega)
    have : ¬ (toks.filter nc).length - 1 ≤ nth toks i := by omega
    simp only [hc, this]

theorem Strip.next {s s' : PS} (h : Strip toks s s') :
    OutRel Eq (Strip toks) (nextToken toks s) (nextToken (toks.filter nc) s') := by
  have hok : ∀ a, nextToken toks s = .ok a → a.Ok toks := fun a ha => nextToken_ok h.ok ha
  rcases h.offset hl he 1 with ⟨i, t, h1, h2, h3, h4⟩ | ⟨h1, h2⟩
  · obtain ⟨a, ha, hpos⟩ : ∃ a, nextToken toks s = .ok a ∧ a.pos = i := by
      rcases nextToken_cases toks s h.ok.inp with ⟨a, h5, h6, _⟩ | ⟨u, _, h5⟩
      · rw [h1] at h6; cases h6; exact ⟨a, h5, rfl⟩
      · unfold nextToken at h5
        rw [h1] at h5
        dsimp only at h5
        repeat' split at h5
        all_goals try cases h5
        · rename_i h7
          unfold tokAt at h7; split at h7 <;> cases h7
    have hnext : nextToken (toks.filter nc) s' = .ok ⟨nth toks i, [], []⟩ := by
      have hs' := h.eq
      have hi : i ≥ s.pos + 1 := by
        have := (offset_one_between h1).1; omega
      have hnth : nth toks i = nth toks s.pos + 1 := by
        obtain ⟨u, hu, huc⟩ := h.tok
        obtain ⟨k, rfl⟩ := Nat.le.dest hi
        have hb := (offset_one_between h1).2
        rw [nth_add, nth_succ hu huc]
        have : ((toks.drop (s.pos + 1)).take k).filter nc = [] := by
          rw [List.filter_eq_nil_iff]
          intro x hx
          obtain ⟨j, hj⟩ := List.mem_iff_getElem?.1 hx
          rw [List.getElem?_take] at hj
          split at hj
          · rw [List.getElem?_drop] at hj
            simp [hb _ x (by omega) (by omega) hj]
          · cases hj
        rw [this]; rfl
      unfold nextToken
      rw [h2]
      subst hs'
      dsimp only [List.getLast?_nil]
      have hr : range (nth toks s.pos + 1) (nth toks i) = [] := by
        rw [hnth]; simp [range]
      rw [hr]
      have hst : Strip toks ⟨i, [], []⟩ ⟨nth toks i, [], []⟩ :=
        ⟨⟨by have := (List.getElem?_eq_some_iff.1 h3).1; exact this,
          fun u hu => by cases h3.symm.trans hu; exact h4, by simp, by simp⟩, ⟨t, h3, h4⟩, rfl⟩
      rcases hst.offset hl he 1 with ⟨j, u, h5, h6, h7, h8⟩ | ⟨h5, h6⟩ <;> rw [h6]
      dsimp only [tokAt]
      rw [get_nth h3 h4]
      dsimp only
      have hnj : nth toks j = nth toks i + 1 := by
        have hb := (offset_one_between h5)
        obtain ⟨k, rfl⟩ := Nat.le.dest (show i + 1 ≤ j from hb.1)
        rw [nth_add, nth_succ h3 h4]
        have : ((toks.drop (i + 1)).take k).filter nc = [] := by
          rw [List.filter_eq_nil_iff]
          intro x hx
          obtain ⟨m, hm⟩ := List.mem_iff_getElem?.1 hx
          rw [List.getElem?_take] at hm
          split at hm
          · rw [List.getElem?_drop] at hm
            have h8 := hb.2 (i + 1 + m) x (by dsimp only; omega) (by omega) hm
            simp [h8]
          · cases hm
        rw [this]; rfl
      rw [hnj]
      have htr : ∀ line idx (l : List Token), trailing line idx idx l = [] := by
        intro line idx l; cases l <;> simp [trailing]
      rw [htr]
    rw [ha, hnext]
    exact ⟨hok a ha, ⟨t, hpos ▸ h3, h4⟩, by rw [hpos]⟩
  · have h5 : nextToken toks s = .err ⟨e.line, e.column, .followedByEof⟩ := by
      unfold nextToken; rw [h1]
    have h6 : nextToken (toks.filter nc) s' = .err ⟨e.line, e.column, .followedByEof⟩ := by
      unfold nextToken; rw [h2]
    rw [h5, h6]
    rfl

omit hl he in
theorem commentNodes_total {is : List Nat} (h : ∀ i ∈ is, i < toks.length) :
    ∃ cs, commentNodes toks is = .ok cs := by
  induction is with
  | nil => exact ⟨[], rfl⟩
  | cons i is ih =>
    obtain ⟨cs, h1⟩ := ih fun j hj => h j (by simp [hj])
    have hi := h i (by simp)
    exact ⟨Node.new toks[i] .Comment :: cs, by
      simp only [Core.commentNodes, tokAt, List.getElem?_eq_getElem hi, h1]⟩

omit hl he in
theorem Strip.attach {s s' : PS} (h : Strip toks s s') {n n' : Node} (hn : stripComments n = n') :
    OutRel (Eq : Err → Err → Prop) (fun a b => stripComments a = b) (attachComments toks s n)
      (attachComments (toks.filter nc) s' n') := by
  obtain ⟨l, h1⟩ := commentNodes_total h.ok.lead
  obtain ⟨t, h2⟩ := commentNodes_total h.ok.trail
  rw [h.eq]
  simp only [attachComments, h1, h2, commentNodes, List.length_nil, Nat.lt_irrefl, if_false, OutRel]
  split <;> split
  · rw [strip_pushComments _ _ _ (.inr rfl), strip_pushComments _ _ _ (.inl rfl), hn]
  · rw [strip_pushComments _ _ _ (.inr rfl), hn]
  · rw [strip_pushComments _ _ _ (.inl rfl), hn]
  · exact hn

theorem Strip.construct {U : Unicode} {s s' : PS} (h : Strip toks s s') (nt : NodeType) :
    OutRel Eq (fun a b => stripComments a = b) (construct U toks s nt)
      (construct U (toks.filter nc) s' nt) := by
  have hc : ∀ t, classify U toks s t = classify U (toks.filter nc) s' t := by
    intro t; unfold classify; rw [(h.token hl he 1).1]
  have hnp : ∀ t p, classify U toks s t ≠ .panic p := by
    intro t p
    unfold classify
    have := (h.token hl he 1).2
    cases hg : getToken toks s 1 with
    | panic q => exact absurd hg (this q)
    | _ => dsimp only; repeat' (split; simp)
           all_goals simp
  unfold Core.construct
  rw [← (h.token hl he 0).1]
  cases hg : getToken toks s 0 with
  | timeout => exact OutRel.timeout_left _
  | panic p => rfl
  | err x => rfl
  | ok t =>
    dsimp only
    split
    · exact h.attach (by simp [Node.empty, stripComments, stripKids])
    · split
      · rw [← hc]
        cases classify U toks s t with
        | ok ty => exact h.attach (by simp [Node.new, stripComments, stripKids])
        | err x => rfl
        | panic p => rfl
        | timeout => exact OutRel.timeout_left _
      · exact h.attach (by simp [Node.new, stripComments, stripKids])

/-- Removal of comments as a relation between runs. -/
def stripRel (U : Unicode) : Rel where
  U := U
  S := .noComments
  toks := toks
  toks' := toks.filter nc
  RE := Eq
  RS := Strip toks
  RN a b := stripComments a = b
  tok := by
    intro s s' h n
    rw [← (h.token hl he n).1]
    cases getToken toks s n with
    | ok t => exact ⟨rfl, rfl, rfl, rfl, fun _ _ => rfl, Iff.rfl, fun _ _ => Iff.rfl, fun _ _ => Iff.rfl,
        fun m => rfl⟩
    | err x => rfl
    | panic p => rfl
    | timeout => exact OutRel.timeout_left _
  eof s s' h n := h.isEof hl he n
  next s s' h := h.next hl he
  construct s s' h nt := h.construct hl he nt
  adj := by
    intro s s' h a b a' b' h1 h2 h3 h4
    rw [← (h.token hl he _).1] at h3 h4
    rw [h1] at h3; rw [h2] at h4
    cases h3; cases h4; rfl
  empty nt := by simp [Node.empty, stripComments, stripKids]
  pushNode := by
    rintro n _ c _ k hk rfl rfl
    exact strip_pushNode n c k hk
  pushVec := by
    rintro n _ cs cs' k hk rfl h
    have : cs' = cs.map stripComments := by
      induction h with
      | nil => rfl
      | cons h _ ih => rw [← h, ih]; rfl
    rw [this]
    exact strip_pushVec n cs k hk
  setType := by rintro n _ nt rfl; exact strip_setType n nt
  ty := by rintro n _ rfl; exact (strip_ty n).symm
  leftmost := by rintro n _ rfl; exact (strip_leftmost n).symm
  hasKey := by
    rintro n _ k rfl hk
    rw [strip_kids]
    exact (strip_keys _ k hk).symm

theorem strip_new : OutRel Eq (Strip toks) (Core.new toks) (Core.new (toks.filter nc)) := by
  have hok : ∀ a, Core.new toks = .ok a → a.Ok toks := fun a ha => new_ok ha
  have hlc : ∀ (ts : List Token), (∃ t ∈ ts, t.isComment = false) →
      (∃ t, ts[leadingComments ts]? = some t ∧ t.isComment = false) ∧ nth ts (leadingComments ts) = 0 := by
    intro ts
    induction ts with
    | nil => simp
    | cons t ts ih =>
      intro h
      by_cases ht : t.isComment = true
      · obtain ⟨h1, h2⟩ := ih (by obtain ⟨u, hu, hc⟩ := h; refine ⟨u, ?_, hc⟩; rcases List.mem_cons.1 hu with rfl | h; · rw [ht] at hc; cases hc
                                  · exact h)
        simp only [leadingComments, ht, if_true]
        refine ⟨by simpa using h1, ?_⟩
        simpa [nth, ht] using h2
      · simp only [leadingComments, ht, if_false, Bool.false_eq_true]
        exact ⟨⟨t, by simp, by simpa using ht⟩, by simp [nth]⟩
  have hex : ∃ t ∈ toks, t.isComment = false := ⟨e, List.mem_of_getLast? hl, he⟩
  obtain ⟨⟨t, h1, h2⟩, h3⟩ := hlc toks hex
  obtain ⟨a, ha, hpos⟩ : ∃ a, Core.new toks = .ok a ∧ a.pos = leadingComments toks := by
    unfold Core.new; dsimp only; rw [h1]; dsimp only; split <;> exact ⟨_, rfl, rfl⟩
  have hlc0 : ∀ ts : List Token, leadingComments (ts.filter nc) = 0 := by
    intro ts
    induction ts with
    | nil => rfl
    | cons t ts ih =>
      rw [List.filter_cons]
      split
      · rename_i hh
        have : t.isComment = false := by simpa using hh
        simp [leadingComments, this]
      · exact ih
  have htn : ∀ line idx (ts : List Token), trailingNew line idx (ts.filter nc) = [] := by
    intro line idx ts
    induction ts with
    | nil => rfl
    | cons t ts ih =>
      rw [List.filter_cons]
      split
      · rename_i hh
        have : t.isComment = false := by simpa using hh
        simp [trailingNew, this]
      · exact ih
  have hnew : Core.new (toks.filter nc) = .ok ⟨0, [], []⟩ := by
    have h4 := get_nth h1 h2
    rw [h3] at h4
    unfold Core.new
    rw [hlc0]
    dsimp only
    rw [h4]
    dsimp only
    have h5 : (toks.filter nc).drop (0 + 1) = (toks.drop (leadingComments toks + 1)).filter nc := by
      rw [← drop_nth, nth_succ h1 h2, h3]
    rw [h5, htn]
    simp [range]
  rw [ha, hnew]
  exact ⟨hok a ha, ⟨t, hpos ▸ h1, h2⟩, by rw [hpos, h3]⟩

theorem strip_parse (U : Unicode) :
    OutRel Eq (fun ns ns' => ns' = ns.map stripComments) (parseTokens U toks)
      (parseTokens U (toks.filter nc)) := by
  have h := Rel.parseTokensWith_rel (stripRel hl he U) (fun f => okBy_noComments f (mem_fn_all f))
    (strip_new hl he) (toks.length + 1) ((toks.filter nc).length + 1) (4 * toks.length)
    (4 * (toks.filter nc).length)
  refine OutRel.mono h fun ns ns' hn => ?_
  induction hn with
  | nil => rfl
  | cons h _ ih => rw [ih, ← show _ = _ from h]; rfl
end Tokens

end Verif
