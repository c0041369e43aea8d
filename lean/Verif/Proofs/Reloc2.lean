import Verif.Proofs.Reloc
/-! Relocation of tokens: the primitives of the parser (C18, C20). -/
namespace Verif
open Core Interp Spec

section Shape
variable {T : Token → Token → Prop}

theorem Spec.SameKids.keys {ks ks' : Kids} (h : SameKids T ks ks') : ks.keys = ks'.keys := by
  refine SameKids.rec (motive_1 := fun _ _ _ => True) (motive_2 := fun ks ks' _ => ks.keys = ks'.keys)
    (motive_3 := fun _ _ _ => True) ?_ ?_ ?_ ?_ ?_ ?_ ?_ h <;> simp_all [Kids.keys]

theorem Spec.SameKids.insertOne {ks ks' : Kids} (h : SameKids T ks ks') (k : Key) {c c' : Node}
    (hc : SameShape T c c') : SameKids T (ks.insertOne k c) (ks'.insertOne k c') := by
  refine SameKids.rec (motive_1 := fun _ _ _ => True)
    (motive_2 := fun ks ks' _ => SameKids T (ks.insertOne k c) (ks'.insertOne k c'))
    (motive_3 := fun _ _ _ => True) (by intros; trivial) (by intros; trivial)
    ?_ ?_ ?_ trivial (by intros; trivial) h
  · exact .one k hc .nil
  · intro k' n n' h1 r r' h2 _ ih
    simp only [Kids.insertOne]
    split
    · exact .one k hc h2
    · exact .one k' h1 ih
  · intro k' n n' h1 r r' h2 _ ih
    simp only [Kids.insertOne]
    split
    · exact .one k hc h2
    · exact .many k' h1 ih

theorem Spec.SameKids.insertMany {ks ks' : Kids} (h : SameKids T ks ks') (k : Key) {c c' : Nodes}
    (hc : SameArray T c c') : SameKids T (ks.insertMany k c) (ks'.insertMany k c') := by
  refine SameKids.rec (motive_1 := fun _ _ _ => True)
    (motive_2 := fun ks ks' _ => SameKids T (ks.insertMany k c) (ks'.insertMany k c'))
    (motive_3 := fun _ _ _ => True) (by intros; trivial) (by intros; trivial)
    ?_ ?_ ?_ trivial (by intros; trivial) h
  · exact .many k hc .nil
  · intro k' n n' h1 r r' h2 _ ih
    simp only [Kids.insertMany]
    split
    · exact .many k hc h2
    · exact .one k' h1 ih
  · intro k' n n' h1 r r' h2 _ ih
    simp only [Kids.insertMany]
    split
    · exact .many k hc h2
    · exact .many k' h1 ih

theorem Spec.SameShape.kids {n n' : Node} (h : SameShape T n n') : SameKids T n.kids n'.kids := by
  cases h <;> assumption

theorem Spec.SameShape.ty {n n' : Node} (h : SameShape T n n') : n.ty = n'.ty := by
  cases h <;> rfl

theorem Spec.SameShape.withKids {n n' : Node} (h : SameShape T n n') (ty : NodeType) {ks ks' : Kids}
    (hk : SameKids T ks ks') : SameShape T (.mk n.tok ty ks) (.mk n'.tok ty ks') := by
  cases h with
  | leaf => exact .leaf _ hk
  | tok ht => exact .tok ht _ hk

theorem Spec.SameShape.pushNode {n n' c c' : Node} (k : Key) (h : SameShape T n n')
    (hc : SameShape T c c') : SameShape T (n.pushNode k c) (n'.pushNode k c') := by
  unfold Node.pushNode
  rw [← h.ty]
  exact h.withKids _ (h.kids.insertOne k hc)

theorem sameArray_ofList {cs cs' : List Node} (h : List.Forall₂ (SameShape T) cs cs') :
    SameArray T (Nodes.ofList cs) (Nodes.ofList cs') := by
  induction h with
  | nil => exact .nil
  | cons h _ ih => exact .cons h ih

theorem Spec.SameShape.pushVec {n n' : Node} {cs cs' : List Node} (k : Key) (h : SameShape T n n')
    (hc : List.Forall₂ (SameShape T) cs cs') : SameShape T (n.pushVec k cs) (n'.pushVec k cs') := by
  unfold Node.pushVec
  rw [← h.ty]
  exact h.withKids _ (h.kids.insertMany k (sameArray_ofList hc))

theorem Spec.SameShape.setType {n n' : Node} (nt : NodeType) (h : SameShape T n n') :
    SameShape T (n.setType nt) (n'.setType nt) := h.withKids _ h.kids

theorem Spec.SameShape.leftmost {n n' : Node} (h : SameShape T n n') :
    n.leftmostType = n'.leftmostType := by
  refine SameShape.rec (motive_1 := fun n n' _ => n.leftmostType = n'.leftmostType)
    (motive_2 := fun ks ks' _ => ∀ d, Node.leftmostType.kidsLeftmost d ks =
      Node.leftmostType.kidsLeftmost d ks')
    (motive_3 := fun _ _ _ => True) ?_ ?_ ?_ ?_ ?_ trivial (by intros; trivial) h
  · intro ty ks ks' h ih
    simp only [Node.leftmostType, ih]
  · intro t t' ht ty ks ks' h ih
    simp only [Node.leftmostType, ih]
  · intro d; rfl
  · intro k n n' h r r' hr ih1 ih2 d
    simp only [Node.leftmostType.kidsLeftmost, ih1, ih2]
  · intro k n n' h r r' hr ih1 ih2 d
    simp only [Node.leftmostType.kidsLeftmost, ih2]
end Shape

/-- The first token after a position that is no comment: all tokens before it are comments. -/
theorem scanFrom_one {cnt idx : Nat} {ts : List Token} {i : Nat}
    (h : scanFrom 1 cnt idx ts = some i) :
    ∀ k t, idx ≤ k → k < i → ts[k - idx]? = some t → t.isComment = true := by
  induction ts generalizing cnt idx with
  | nil => simp [scanFrom] at h
  | cons a ts ih =>
    simp only [scanFrom] at h
    split at h
    · rename_i ha
      intro k t h1 h2 h3
      by_cases hk : k = idx
      · subst hk; simp at h3; subst h3; exact ha
      · refine ih h k t (by omega) h2 ?_
        rw [show k - idx = (k - (idx + 1)) + 1 by omega] at h3
        simpa using h3
    · rw [if_pos (by omega)] at h
      cases h
      intro k t h1 h2; omega

theorem scanFrom_congr {offset : Nat} {ts ts' : List Token}
    (h : List.Forall₂ (fun t t' => t.isComment = t'.isComment) ts ts') (cnt idx : Nat) :
    scanFrom offset cnt idx ts = scanFrom offset cnt idx ts' := by
  induction h generalizing cnt idx with
  | nil => rfl
  | cons h _ ih => simp only [scanFrom, h, ih]

theorem trailing_congr {line line' stop : Nat} {ts ts' : List Token} (hl : ts.length = ts'.length) :
    ∀ idx, (∀ k t t', idx ≤ k → k < stop → ts[k - idx]? = some t → ts'[k - idx]? = some t' →
      (line = t.line ↔ line' = t'.line)) →
    trailing line stop idx ts = trailing line' stop idx ts' := by
  induction ts generalizing ts' with
  | nil => cases ts' with
    | nil => intros; rfl
    | cons => simp at hl
  | cons a ts ih => cases ts' with
    | nil => simp at hl
    | cons a' ts' =>
      intro idx h
      simp only [trailing]
      rw [ih (by simpa using hl) (idx + 1) fun k t t' h1 h2 h3 h4 => h k t t' (by omega) h2
        (by rw [show k - idx = (k - (idx + 1)) + 1 by omega]; simpa using h3)
        (by rw [show k - idx = (k - (idx + 1)) + 1 by omega]; simpa using h4)]
      by_cases hs : idx < stop
      · have := h idx a a' (Nat.le_refl _) hs (by simp) (by simp)
        simp only [hs, this]
      · simp only [hs, false_and]

theorem trailingNew_congr {line line' : Nat} {ts ts' : List Token}
    (hl : List.Forall₂ (fun t t' => t.isComment = t'.isComment) ts ts') :
    ∀ idx, (∀ (k : Nat) (t t' : Token), (∀ (j : Nat) (u : Token), j < k → ts[j]? = some u → u.isComment = true) →
      t.isComment = true → ts[k]? = some t → ts'[k]? = some t' → (line = t.line ↔ line' = t'.line)) →
    trailingNew line idx ts = trailingNew line' idx ts' := by
  induction hl with
  | nil => intros; rfl
  | @cons a a' ts ts' h hr ih =>
    intro idx hh
    simp only [trailingNew, ← h]
    by_cases ha : a.isComment = true
    · have h0 := hh 0 a a' (by intros; omega) ha (by simp) (by simp)
      simp only [ha, true_and, h0]
      rw [ih (idx + 1) ?_]
      intro k t t' hj ht h1 h2
      refine hh (k + 1) t t' ?_ ht (by simpa using h1) (by simpa using h2)
      intro j u hjk hu
      cases j with
      | zero => simp at hu; subst hu; exact ha
      | succ j => exact hj j u (by omega) (by simpa using hu)
    · simp [ha]

/-- Indices stored in a parser state are in range. -/
structure PS.Ok (toks : List Token) (s : PS) : Prop where
  inp : s.In toks
  nc : ∀ t, toks[s.pos]? = some t → t.isComment = false
  lead : ∀ i ∈ s.lead, i < toks.length
  trail : ∀ i ∈ s.trail, i < toks.length

theorem mem_range {a b i : Nat} (h : i ∈ range a b) : a ≤ i ∧ i < b := by
  simp only [range, List.mem_range'_1] at h
  omega

theorem trailing_lt {line stop idx : Nat} {ts : List Token} {i : Nat}
    (h : i ∈ trailing line stop idx ts) : idx ≤ i ∧ i < stop ∧ i < idx + ts.length := by
  induction ts generalizing idx with
  | nil => simp [trailing] at h
  | cons t ts ih =>
    simp only [trailing] at h
    split at h
    · rename_i h1
      rcases List.mem_cons.1 h with rfl | h
      · simp; omega
      · have := ih h; simp only [List.length_cons]; omega
    · cases h

theorem trailingNew_lt {line idx : Nat} {ts : List Token} {i : Nat}
    (h : i ∈ trailingNew line idx ts) : idx ≤ i ∧ i < idx + ts.length := by
  induction ts generalizing idx with
  | nil => simp [trailingNew] at h
  | cons t ts ih =>
    simp only [trailingNew] at h
    split at h
    · rcases List.mem_cons.1 h with rfl | h
      · simp
      · have := ih h; simp only [List.length_cons]; omega
    · cases h

theorem nextToken_ok {toks : List Token} {s s' : PS} (hs : s.Ok toks)
    (h : nextToken toks s = .ok s') : s'.Ok toks := by
  unfold nextToken at h
  rcases getOffsetIndex_cases toks s hs.inp 1 with ⟨i, h1, h2, h3, h4, h5⟩ | ⟨h1, t, h2, h3⟩
  · rw [h1] at h
    dsimp only at h
    generalize hr : range _ i = lead at h
    have hnc : ∀ t, toks[i]? = some t → t.isComment = false := by
      obtain ⟨t, h6, h7⟩ := h5 (by omega)
      intro u hu
      rw [h6] at hu
      cases hu
      exact h7
    have hl : ∀ j ∈ lead, j < toks.length := by
      intro j hj
      rw [← hr] at hj
      have := (mem_range hj).2
      omega
    rcases getOffsetIndex_cases toks ⟨i, lead, []⟩ h3 1 with ⟨j, h6, h7, h8, _, _⟩ | ⟨h6, t, h7, h8⟩
    · rw [h6] at h
      dsimp only at h
      split at h <;> try cases h
      refine ⟨h3, hnc, hl, fun k hk => ?_⟩
      have := trailing_lt hk
      simp only [List.length_drop] at this
      omega
    · rw [h8] at h
      cases h
      exact ⟨h3, hnc, hl, by simp⟩
  · rw [h3] at h; cases h

theorem leadingComments_nc {toks : List Token} {t : Token} (h : toks[leadingComments toks]? = some t) :
    t.isComment = false := by
  induction toks with
  | nil => simp at h
  | cons a l ih =>
    simp only [leadingComments] at h
    split at h
    · simp at h; exact ih h
    · simp at h; subst h; simp_all

theorem new_ok {toks : List Token} {s : PS} (h : Core.new toks = .ok s) : s.Ok toks := by
  have hin := new_in toks s h
  unfold Core.new at h
  dsimp only at h
  split at h
  · cases h
  · split at h
    · cases h
      refine ⟨hin, fun t => leadingComments_nc, fun i hi => ?_, by simp⟩
      have := mem_range hi
      simp only [PS.In] at hin
      omega
    · cases h
      refine ⟨hin, fun t => leadingComments_nc, fun i hi => ?_, fun i hi => ?_⟩
      · have := mem_range hi
        simp only [PS.In] at hin
        omega
      · have := trailingNew_lt hi
        simp only [List.length_drop, PS.In] at this hin
        omega

section
variable {U : Unicode} {toks toks' : List Token} (hU : U.Lawful) (hR : Relocated toks toks')

/-- Corresponding errors. -/
inductive CorrErr (toks toks' : List Token) : Err → Err → Prop
  | mk {t t' : Token} (h : Corresponds toks toks' t t') {m m' : Msg} (hm : SameMsg t t' m m') :
      CorrErr toks toks' ⟨t.line, t.column, m⟩ ⟨t'.line, t'.column, m'⟩

include hR

theorem Spec.Relocated.length_eq : toks.length = toks'.length := hR.literals.length_eq

theorem Spec.Relocated.comments :
    List.Forall₂ (fun t t' => t.isComment = t'.isComment) toks toks' :=
  hR.literals.imp fun _ _ h => isComment_eq (SameUpToCase.lit h)

theorem Spec.Relocated.case {t t' : Token} (h : Corresponds toks toks' t t') :
    LitEq t.literal t'.literal := by
  obtain ⟨i, h1, h2⟩ := h
  obtain ⟨l1, e1⟩ := List.getElem?_eq_some_iff.1 h1
  obtain ⟨l2, e2⟩ := List.getElem?_eq_some_iff.1 h2
  have := (List.forall₂_iff_get.1 hR.literals).2 i l1 l2
  simp only [List.get_eq_getElem, e1, e2] at this
  exact SameUpToCase.lit this

theorem Spec.Relocated.corr {i : Nat} {t : Token} (h : toks[i]? = some t) :
    ∃ t', toks'[i]? = some t' ∧ Corresponds toks toks' t t' := by
  obtain ⟨l1, e1⟩ := List.getElem?_eq_some_iff.1 h
  have l2 : i < toks'.length := by rw [← hR.length_eq]; exact l1
  exact ⟨toks'[i], List.getElem?_eq_getElem l2, i, h, List.getElem?_eq_getElem l2⟩

omit hR in
theorem forall₂_drop {α β : Type} {P : α → β → Prop} {l : List α} {l' : List β}
    (h : List.Forall₂ P l l') (n : Nat) : List.Forall₂ P (l.drop n) (l'.drop n) := by
  induction h generalizing n with
  | nil => simp
  | cons h hr ih => cases n with
    | zero => exact .cons h hr
    | succ n => simpa using ih n

theorem Spec.Relocated.offset (s : PS) (n : Nat) (hs : s.In toks) :
    (∃ i, getOffsetIndex toks s n = .ok i ∧ getOffsetIndex toks' s n = .ok i) ∨
    (∃ t t', Corresponds toks toks' t t' ∧
      getOffsetIndex toks s n = .err ⟨t.line, t.column, .followedByEof⟩ ∧
      getOffsetIndex toks' s n = .err ⟨t'.line, t'.column, .followedByEof⟩) := by
  unfold getOffsetIndex
  split
  · exact .inl ⟨_, rfl, rfl⟩
  · rw [← scanFrom_congr (forall₂_drop hR.comments (s.pos + 1))]
    split
    · exact .inl ⟨_, rfl, rfl⟩
    · right
      have hpos : 0 < toks.length := Nat.lt_of_le_of_lt (Nat.zero_le _) hs
      have hne : toks ≠ [] := List.length_pos_iff.1 hpos
      have hne' : toks' ≠ [] := List.length_pos_iff.1 (hR.length_eq ▸ hpos)
      rw [List.getLast?_eq_some_getLast hne, List.getLast?_eq_some_getLast hne']
      refine ⟨_, _, ⟨toks.length - 1, ?_, ?_⟩, rfl, rfl⟩
      · rw [← List.getLast?_eq_getElem?, List.getLast?_eq_some_getLast hne]
      · rw [hR.length_eq, ← List.getLast?_eq_getElem?, List.getLast?_eq_some_getLast hne']

theorem Spec.Relocated.token (s : PS) (n : Nat) (hs : s.In toks) :
    OutRel (CorrErr toks toks') (Corresponds toks toks') (getToken toks s n) (getToken toks' s n) := by
  unfold getToken
  rcases hR.offset s n hs with ⟨i, h1, h2⟩ | ⟨t, t', h, h1, h2⟩ <;> rw [h1, h2]
  · dsimp only [tokAt]
    rcases getOffsetIndex_cases toks s hs n with ⟨j, h3, _, h4, _⟩ | ⟨_, t, _, h3⟩
    · rw [h1] at h3; cases h3
      obtain ⟨t', h5, h6⟩ := hR.corr (List.getElem?_eq_getElem h4)
      rw [List.getElem?_eq_getElem h4, h5]
      exact h6
    · rw [h1] at h3; cases h3
  · exact .mk h .eof

theorem Spec.Relocated.isEof (s : PS) (n : Nat) (hs : s.In toks) : isEof toks s n = isEof toks' s n := by
  unfold Core.isEof
  rcases hR.offset s n hs with ⟨i, h1, h2⟩ | ⟨t, t', h, h1, h2⟩ <;> rw [h1, h2]
  rw [hR.length_eq]

omit hR in
/-- Between a position and the next token there are only comments. -/
theorem offset_one_between {s : PS} {i : Nat} (h : getOffsetIndex toks s 1 = .ok i) :
    OnlyCommentsBetween toks s.pos i := by
  unfold getOffsetIndex at h
  rw [if_neg (by omega)] at h
  split at h
  · rename_i j hj
    cases h
    refine ⟨by have := (scanFrom_spec _ _ _ _ _ hj).1; omega, fun k t h1 h2 h3 => ?_⟩
    refine scanFrom_one hj k t (by omega) h2 ?_
    rw [List.getElem?_drop, show s.pos + 1 + (k - (s.pos + 1)) = k by omega]
    exact h3
  · split at h <;> cases h

omit hR in
theorem Spec.OnlyCommentsBetween.mono {i j k : Nat} (h : OnlyCommentsBetween toks i j) (h1 : i < k)
    (h2 : k ≤ j) : OnlyCommentsBetween toks i k :=
  ⟨h1, fun m t h3 h4 h5 => h.2 m t h3 (by omega) h5⟩

theorem Spec.Relocated.next (s : PS) (hs : s.Ok toks) :
    OutRel (CorrErr toks toks') (fun a b => a = b ∧ a.Ok toks) (nextToken toks s)
      (nextToken toks' s) := by
  have hgood : ∀ a, nextToken toks s = .ok a → a.Ok toks := fun a h => nextToken_ok hs h
  suffices h : OutRel (CorrErr toks toks') Eq (nextToken toks s) (nextToken toks' s) by
    revert h hgood
    cases nextToken toks s <;> cases nextToken toks' s <;> simp_all [OutRel]
    rintro h rfl; exact h
  clear hgood
  unfold nextToken
  rcases hR.offset s 1 hs.inp with ⟨i, h1, h2⟩ | ⟨t, t', h, h1, h2⟩ <;> rw [h1, h2]
  · dsimp only
    generalize hr : range _ i = lead
    have hin : i < toks.length := by
      rcases getOffsetIndex_cases toks s hs.inp 1 with ⟨j, h3, _, h4, _⟩ | ⟨_, t, _, h3⟩
      · rw [h1] at h3; cases h3; exact h4
      · rw [h1] at h3; cases h3
    rcases hR.offset ⟨i, lead, []⟩ 1 hin with ⟨j, h3, h4⟩ | ⟨t, t', h, h3, h4⟩ <;> rw [h3, h4]
    · dsimp only [tokAt]
      obtain ⟨t', h5, h6⟩ := hR.corr (List.getElem?_eq_getElem hin)
      rw [List.getElem?_eq_getElem hin, h5]
      dsimp only [OutRel]
      congr 1
      refine trailing_congr (by simp [hR.length_eq]) _ fun k t t'' hk1 hk2 h7 h8 => ?_
      rw [List.getElem?_drop, show i + 1 + (k - (i + 1)) = k by omega] at h7 h8
      have hb := (offset_one_between h3).mono (k := k) (show i < k by omega) (by omega)
      have hnc : toks[i].isComment = false := by
        rcases getOffsetIndex_cases toks s hs.inp 1 with ⟨j', h9, _, _, _, h10⟩ | ⟨_, t, _, h9⟩
        · rw [h1] at h9
          cases h9
          obtain ⟨u, h11, h12⟩ := h10 (by omega)
          rw [List.getElem?_eq_getElem hin] at h11
          cases h11
          exact h12
        · rw [h1] at h9; cases h9
      exact hR.comment i k _ _ _ _ hb hnc ((offset_one_between h3).2 k t (by show i < k; omega) (by omega) h7)
        (List.getElem?_eq_getElem hin) h7 h5 h8
    · rfl
  · exact .mk h .eof

theorem Spec.Relocated.new :
    OutRel (CorrErr toks toks') (fun a b => a = b ∧ a.Ok toks) (Core.new toks) (Core.new toks') := by
  have hgood : ∀ a, Core.new toks = .ok a → a.Ok toks := fun a h => new_ok h
  suffices h : OutRel (CorrErr toks toks') Eq (Core.new toks) (Core.new toks') by
    revert h hgood
    cases Core.new toks <;> cases Core.new toks' <;> simp_all [OutRel]
    rintro h rfl; exact h
  clear hgood
  have hlc : leadingComments toks = leadingComments toks' := by
    have := hR.comments
    clear hR
    induction this with
    | nil => rfl
    | cons h _ ih => simp only [leadingComments, h, ih]
  unfold Core.new
  dsimp only
  rw [← hlc, ← hR.length_eq]
  by_cases hin : leadingComments toks < toks.length
  · obtain ⟨t', h5, h6⟩ := hR.corr (List.getElem?_eq_getElem hin)
    rw [List.getElem?_eq_getElem hin, h5]
    dsimp only
    split
    · rfl
    · dsimp only [OutRel]
      congr 1
      refine trailingNew_congr (forall₂_drop hR.comments _) _ fun k t t'' hk hc h7 h8 => ?_
      rw [List.getElem?_drop] at h7 h8
      refine hR.comment (leadingComments toks) (leadingComments toks + 1 + k) _ _ _ _ ?_
        (leadingComments_nc (List.getElem?_eq_getElem hin)) hc (List.getElem?_eq_getElem hin) h7 h5 h8
      refine ⟨by omega, fun m u h9 h10 h11 => hk (m - (leadingComments toks + 1)) u (by omega) ?_⟩
      rw [List.getElem?_drop, show leadingComments toks + 1 + (m - (leadingComments toks + 1)) = m by omega]
      exact h11
  · rw [List.getElem?_eq_none (by omega), List.getElem?_eq_none (by rw [← hR.length_eq]; omega)]
    rfl

theorem Spec.Relocated.commentNodes (is : List Nat) (h : ∀ i ∈ is, i < toks.length) :
    ∃ cs cs', commentNodes toks is = .ok cs ∧ commentNodes toks' is = .ok cs' ∧
      List.Forall₂ (SameShape (Corresponds toks toks')) cs cs' := by
  induction is with
  | nil => exact ⟨[], [], rfl, rfl, .nil⟩
  | cons i is ih =>
    obtain ⟨cs, cs', h1, h2, h3⟩ := ih fun j hj => h j (by simp [hj])
    have hi := h i (by simp)
    obtain ⟨t', h5, h6⟩ := hR.corr (List.getElem?_eq_getElem hi)
    refine ⟨Node.new toks[i] .Comment :: cs, Node.new t' .Comment :: cs', ?_, ?_, .cons (.tok h6 _ .nil) h3⟩
    · simp only [Core.commentNodes, tokAt, List.getElem?_eq_getElem hi, h1]
    · simp only [Core.commentNodes, tokAt, h5, h2]

theorem Spec.Relocated.attach (s : PS) (hs : s.Ok toks) {n n' : Node}
    (hn : SameShape (Corresponds toks toks') n n') :
    OutRel (CorrErr toks toks') (SameShape (Corresponds toks toks')) (attachComments toks s n)
      (attachComments toks' s n') := by
  obtain ⟨l, l', h1, h2, h3⟩ := hR.commentNodes s.lead hs.lead
  obtain ⟨t, t', h4, h5, h6⟩ := hR.commentNodes s.trail hs.trail
  simp only [attachComments, h1, h2, h4, h5, OutRel]
  rw [← h3.length_eq, ← h6.length_eq]
  split <;> split
  · exact (hn.pushVec _ h3).pushVec _ h6
  · exact hn.pushVec _ h6
  · exact hn.pushVec _ h3
  · exact hn

include hU

theorem Spec.Relocated.classify (s : PS) (hs : s.In toks) {t t' : Token}
    (h : Corresponds toks toks' t t') :
    OutRel (CorrErr toks toks') Eq (classify U toks s t) (classify U toks' s t') := by
  have hl := hR.case h
  unfold Core.classify
  rw [isIdentifier_eq hU hl, isNumeric_eq hl, isString_eq hl, isBoolean_eq hU hl, isParameter_eq hl,
    isTemplate_eq hl, show t.upper U = t'.upper U from hl.upper hU]
  repeat' (split; rfl)
  have h1 := hR.token s 1 hs
  revert h1
  cases getToken toks s 1 <;> cases getToken toks' s 1 <;> intro h1 <;>
    first
      | exact OutRel.timeout_left _
      | exact OutRel.timeout_right _
      | exact False.elim h1
      | skip
  · have h2 := hR.case h1
    have ha := h2.beq (x := Kw.lit .sym_lparen) (by decide)
    have hb := h2.beq (x := Kw.lit .sym_dot) (by decide)
    rw [Bool.eq_iff_iff, beq_iff_eq, beq_iff_eq] at ha hb
    simp only [ha, hb]
    split <;> rfl
  · exact h1
  · exact h1

theorem Spec.Relocated.construct (s : PS) (hs : s.Ok toks) (nt : NodeType) :
    OutRel (CorrErr toks toks') (SameShape (Corresponds toks toks')) (construct U toks s nt)
      (construct U toks' s nt) := by
  have h1 := hR.token s 0 hs.inp
  unfold Core.construct
  revert h1
  cases getToken toks s 0 <;> cases getToken toks' s 0 <;> intro h1 <;>
    first
      | exact OutRel.timeout_left _
      | exact OutRel.timeout_right _
      | exact False.elim h1
      | skip
  · rename_i t t'
    dsimp only
    split
    · exact hR.attach s hs (.leaf _ .nil)
    · split
      · have h2 := hR.classify hU s hs.inp h1
        revert h2
        cases Core.classify U toks s t <;> cases Core.classify U toks' s t' <;> intro h2 <;>
          first
            | exact OutRel.timeout_left _
            | exact OutRel.timeout_right _
            | exact False.elim h2
            | skip
        · cases h2
          exact hR.attach s hs (.tok h1 _ .nil)
        · exact h2
        · exact h2
      · exact hR.attach s hs (.tok h1 _ .nil)
  · exact h1
  · exact h1

/-- Relocation as a relation between runs. -/
def Spec.Relocated.rel : Rel where
  U := U
  S := .sym
  toks := toks
  toks' := toks'
  RE := CorrErr toks toks'
  RS s s' := s = s' ∧ s.Ok toks
  RN := SameShape (Corresponds toks toks')
  tok := by
    rintro s _ ⟨rfl, hs⟩ n
    exact (hR.token s n hs.inp).mono fun t t' h => tokRel_case hU (hR.case h) fun m => .mk h (.site m)
  eof := by rintro s _ ⟨rfl, hs⟩ n; exact hR.isEof s n hs.inp
  next := by rintro s _ ⟨rfl, hs⟩; exact hR.next s hs
  construct := by rintro s _ ⟨rfl, hs⟩ nt; exact hR.construct hU s hs nt
  adj := by
    rintro s _ ⟨rfl, hs⟩ a b a' b' h1 h2 h3 h4
    have hi : ∀ n t, getToken toks s n = .ok t → ∃ i, getOffsetIndex toks s n = .ok i ∧ toks[i]? = some t := by
      intro n t h
      rcases getToken_cases toks s hs.inp n with ⟨i, u, h5, h6, h7, _⟩ | ⟨_, u, _, _, h5⟩
      · rw [h] at h6; cases h6; exact ⟨i, h5, h7⟩
      · rw [h] at h5; cases h5
    have hin' : s.In toks' := by
      have := hs.inp; unfold PS.In at this ⊢; rw [← hR.length_eq]; exact this
    have hi' : ∀ n t, getToken toks' s n = .ok t → ∃ i, getOffsetIndex toks' s n = .ok i ∧ toks'[i]? = some t := by
      intro n t h
      rcases getToken_cases toks' s hin' n with ⟨i, u, h5, h6, h7, _⟩ | ⟨_, u, _, _, h5⟩
      · rw [h] at h6; cases h6; exact ⟨i, h5, h7⟩
      · rw [h] at h5; cases h5
    obtain ⟨i, i1, i2⟩ := hi 0 a h1
    obtain ⟨j, j1, j2⟩ := hi 1 b h2
    obtain ⟨i', i1', i2'⟩ := hi' 0 a' h3
    obtain ⟨j', j1', j2'⟩ := hi' 1 b' h4
    have e1 : i = s.pos := by
      simp [getOffsetIndex] at i1; exact i1.symm
    have e2 : i' = s.pos := by
      simp [getOffsetIndex] at i1'; exact i1'.symm
    have e3 : j' = j := by
      rcases hR.offset s 1 hs.inp with ⟨k, h5, h6⟩ | ⟨t, t', _, h5, h6⟩
      · rw [j1] at h5; rw [j1'] at h6; cases h5; cases h6; rfl
      · rw [j1] at h5; cases h5
    subst e1 e2 e3
    have hb : b.isComment = false := by
      rcases getOffsetIndex_cases toks s hs.inp 1 with ⟨k, h5, _, _, _, h6⟩ | ⟨_, t, _, h5⟩
      · rw [j1] at h5
        cases h5
        obtain ⟨u, h7, h8⟩ := h6 (by omega)
        rw [j2] at h7
        cases h7
        exact h8
      · rw [j1] at h5; cases h5
    have := hR.touch s.pos j' a b a' b' (offset_one_between j1) (hs.nc a i2) hb i2 j2 i2' j2'
    unfold Touches at this
    unfold adjacentToks
    rw [Bool.eq_iff_iff]
    simpa using this
  empty nt := .leaf _ .nil
  pushNode n n' c c' k _ h h' := h.pushNode k h'
  pushVec n n' cs cs' k _ h h' := h.pushVec k h'
  setType n n' nt h := h.setType nt
  ty n n' h := h.ty
  leftmost n n' h := h.leftmost
  hasKey n n' k h _ := by rw [h.kids.keys]

theorem Spec.Relocated.sameOutcome : SameOutcome toks toks' (parseTokens U toks) (parseTokens U toks') := by
  have h := Rel.parseTokensWith_rel (hR.rel hU) (fun f => okBy_sym f (mem_fn_all f)) hR.new
    (toks.length + 1) (toks'.length + 1) (4 * toks.length) (4 * toks'.length)
  have h1 := parseTokensWith_ne_timeout U toks (toks.length + 1) (4 * toks.length) (by omega) (by omega)
  have h2 := parseTokensWith_ne_timeout U toks' (toks'.length + 1) (4 * toks'.length) (by omega) (by omega)
  unfold parseTokens
  change OutRel (CorrErr toks toks') (List.Forall₂ (SameShape (Corresponds toks toks')))
    (parseTokensWith U (toks.length + 1) (4 * toks.length) toks)
    (parseTokensWith U (toks'.length + 1) (4 * toks'.length) toks') at h
  generalize parseTokensWith U (toks.length + 1) (4 * toks.length) toks = x at h h1 ⊢
  generalize parseTokensWith U (toks'.length + 1) (4 * toks'.length) toks' = y at h h2 ⊢
  cases x <;> cases y <;> first | exact False.elim h | exact absurd rfl h1 | exact absurd rfl h2 | skip
  · exact .ok h
  · cases h with
    | mk h m => exact .err h m
  · cases (show _ = _ from h)
    exact .panic _
end

end Verif
