import Verif.Proofs.Abs
/-! Soundness of the operations on nodes. -/
namespace Verif.AI
open Core Spec

variable {U : Unicode} {toks : List Token} {w : Token → Nat} {z : Bool}

/-- A comment as a node. -/
def cnode (t : Token) : Node := .mk (some t) .Comment .nil

theorem commentNodes_slice : ∀ (n a : Nat) (ns : List Node), a + n ≤ toks.length →
    commentNodes toks (List.range' a n) = .ok ns → ns = ((toks.take (a + n)).drop a).map cnode := by
  intro n
  induction n with
  | zero =>
    intro a ns h hc
    simp [commentNodes] at hc
    subst hc
    rw [List.drop_eq_nil_of_le (by simp; omega)]; rfl
  | succ n ih =>
    intro a ns h hc
    rw [List.range'_succ] at hc
    simp only [commentNodes] at hc
    split at hc
    · next t ms h1 h2 =>
      simp only [Out.ok.injEq] at hc
      subst hc
      have := ih (a + 1) ms (by omega) h2
      unfold tokAt at h1
      have hlt : a < toks.length := by omega
      rw [List.getElem?_eq_getElem hlt] at h1
      simp only [Out.ok.injEq] at h1
      have hd : (toks.take (a + (n + 1))).drop a = toks[a] :: (toks.take (a + 1 + n)).drop (a + 1) := by
        rw [List.drop_eq_getElem_cons (by simp; omega)]
        congr 1
        · simp
        · congr 2; omega
      rw [hd, this, List.map_cons, h1]
      rfl
    · cases hc

theorem commentNodes_isOk {is : List Nat} (h : ∀ i ∈ is, i < toks.length) :
    ∃ ns, commentNodes toks is = .ok ns := by
  induction is with
  | nil => exact ⟨[], rfl⟩
  | cons i is ih =>
    obtain ⟨ns, hn⟩ := ih fun j hj => h j (List.mem_cons_of_mem _ hj)
    have hi := h i List.mem_cons_self
    refine ⟨Node.new toks[i] .Comment :: ns, ?_⟩
    simp [commentNodes, tokAt, List.getElem?_eq_getElem hi, hn]

theorem trailing_slice {i : Nat} (h : i < toks.length) :
    (toks.take (trailEnd toks i)).drop (i + 1) = trailingComments toks i := by
  unfold trailEnd
  rw [List.drop_take]
  have : i + 1 + (trailingComments toks i).length - (i + 1) = (trailingComments toks i).length := by omega
  rw [this]
  unfold trailingComments
  rw [List.getElem?_eq_getElem h]
  exact (List.prefix_iff_eq_take.1 (List.takeWhile_prefix _)).symm

/-- The entries for the comments of token `i`. -/
def commentEnts (toks : List Token) (i : Nat) : List (Key × Bool × List Node) :=
  (if Spec.leadingComments toks i = [] then [] else
    [(.k_leading_comments, true, (Spec.leadingComments toks i).map cnode)]) ++
  (if trailingComments toks i = [] then [] else
    [(.k_trailing_comments, true, (trailingComments toks i).map cnode)])

theorem ps_comments {s : PS} (hs : s.WF toks) :
    commentNodes toks s.lead = .ok ((Spec.leadingComments toks s.pos).map cnode) ∧
    commentNodes toks s.trail = .ok ((trailingComments toks s.pos).map cnode) := by
  have hp := hs.inp
  unfold PS.In at hp
  have hle := hs.le
  have htl := trailEnd_le_length hp
  constructor
  · obtain ⟨ns, hn⟩ := commentNodes_isOk (toks := toks) (is := s.lead) (by
      intro i hi
      rw [hs.lead] at hi
      have := mem_range hi
      omega)
    rw [hn]
    rw [hs.lead] at hn
    unfold range at hn
    rw [commentNodes_slice _ _ _ (by omega) hn]
    unfold Spec.leadingComments
    rw [Nat.add_sub_cancel' hle]
  · obtain ⟨ns, hn⟩ := commentNodes_isOk (toks := toks) (is := s.trail) (by
      intro i hi
      rw [hs.trail] at hi
      have := mem_range hi
      omega)
    rw [hn]
    rw [hs.trail] at hn
    unfold range at hn
    have he : s.pos + 1 ≤ trailEnd toks s.pos := by unfold trailEnd; omega
    rw [commentNodes_slice _ _ _ (by omega) hn]
    rw [Nat.add_sub_cancel' he, trailing_slice hp]

theorem attach_spec {s : PS} (hs : s.WF toks) (t : Option Token) (ty : NodeType) :
    ∃ ks, attachComments toks s (.mk t ty .nil) = .ok (.mk t ty ks) ∧
      ents ks = commentEnts toks s.pos := by
  obtain ⟨h1, h2⟩ := ps_comments hs
  unfold attachComments commentEnts
  rw [h1, h2]
  dsimp only
  generalize Spec.leadingComments toks s.pos = ls
  generalize trailingComments toks s.pos = ts
  rcases ls with _ | ⟨l, ls⟩ <;> rcases ts with _ | ⟨u, ts⟩
  · exact ⟨_, rfl, rfl⟩
  · refine ⟨_, rfl, ?_⟩
    show ents (Kids.insertMany _ _ .nil) = _
    rw [ents_insertMany]; simp [upd, ents]
  · refine ⟨_, rfl, ?_⟩
    show ents (Kids.insertMany _ _ .nil) = _
    rw [ents_insertMany]; simp [upd, ents]
  · refine ⟨_, rfl, ?_⟩
    show ents (Kids.insertMany _ _ (Kids.insertMany _ _ .nil)) = _
    rw [ents_insertMany, ents_insertMany]; simp [upd, ents]

theorem commentsBefore_all' {i : Nat} (hi : i ≤ toks.length) :
    AllComments toks (i - commentsBefore toks i) i ∧ commentsBefore toks i ≤ i := by
  have hl : (toks.take i).length = i := by simp; omega
  have hle : commentsBefore toks i ≤ i := by
    unfold commentsBefore
    have := (List.takeWhile_sublist (l := (toks.take i).reverse) Token.isComment).length_le
    rw [List.length_reverse, hl] at this
    exact this
  refine ⟨?_, hle⟩
  intro j t hj hji ht
  have hm : t ∈ (toks.take i).reverse.takeWhile Token.isComment := by
    have hp := List.prefix_iff_eq_take.1
      (List.takeWhile_prefix (l := (toks.take i).reverse) Token.isComment)
    rw [hp]
    apply List.mem_of_getElem? (i := i - 1 - j)
    rw [List.getElem?_take, if_pos (by unfold commentsBefore at hj hle; omega),
      List.getElem?_reverse (by omega), hl, List.getElem?_take, if_pos (by omega)]
    have : i - 1 - (i - 1 - j) = j := by omega
    rw [this, ht]
  exact List.all_eq_true.1 List.all_takeWhile _ hm

theorem lead_allComments {s : PS} (hs : s.WF toks) : ∀ t ∈ Spec.leadingComments toks s.pos, t.isComment = true := by
  intro t ht
  have hp := hs.inp
  unfold PS.In at hp
  unfold Spec.leadingComments at ht
  obtain ⟨j, hj⟩ := List.mem_iff_getElem?.1 ht
  rw [List.getElem?_drop, List.getElem?_take] at hj
  split at hj
  · next h =>
    have hc := commentsBefore_all' (toks := toks) (i := s.pos) (by omega)
    refine hc.1 _ t ?_ h hj
    unfold leadStart
    dsimp only
    split <;> omega
  · cases hj

theorem trail_allComments {i : Nat} : ∀ t ∈ trailingComments toks i, t.isComment = true := by
  intro t ht
  unfold trailingComments at ht
  split at ht
  · simp at ht
  · have := List.all_eq_true.1 List.all_takeWhile _ ht
    simp at this
    exact this.1

theorem mem_commentEnts {s : PS} (hs : s.WF toks) {e : Key × Bool × List Node}
    (he : e ∈ commentEnts toks s.pos) :
    IsCommentKey e.1 ∧ e.2.1 = true ∧ ∀ c ∈ e.2.2, CommentLeaf c := by
  unfold commentEnts at he
  rcases List.mem_append.1 he with he | he
  · split at he
    · simp at he
    · simp at he; subst he
      refine ⟨.inl rfl, rfl, ?_⟩
      intro c hc
      obtain ⟨t, ht, rfl⟩ := List.mem_map.1 hc
      exact ⟨t, rfl, lead_allComments hs t ht⟩
  · split at he
    · simp at he
    · simp at he; subst he
      refine ⟨.inr rfl, rfl, ?_⟩
      intro c hc
      obtain ⟨t, ht, rfl⟩ := List.mem_map.1 hc
      exact ⟨t, rfl, trail_allComments t ht⟩

theorem nodes_cnode (t : Token) : nodes (cnode t) = [cnode t] := rfl

theorem flatMap_cnode (l : List Token) : (l.map cnode).flatMap nodes = l.map cnode := by
  induction l with
  | nil => rfl
  | cons a l ih => rw [List.map_cons, List.flatMap_cons, ih, nodes_cnode]; rfl

theorem twt_cnode (l : List Token) : ((l.map cnode).map (twt w)).sum = (l.map w).sum := by
  rw [List.map_map]; rfl

theorem commentEnts_nodes (i : Nat) :
    (commentEnts toks i).flatMap (fun e => e.2.2.flatMap nodes) =
      (Spec.leadingComments toks i ++ trailingComments toks i).map cnode := by
  unfold commentEnts
  by_cases h1 : Spec.leadingComments toks i = [] <;> by_cases h2 : trailingComments toks i = [] <;>
    simp [h1, h2, flatMap_cnode]

theorem pre_add {a b : Nat} (h : a ≤ b) :
    pre w toks b = pre w toks a + (((toks.take b).drop a).map w).sum := by
  unfold pre
  have : toks.take b = toks.take a ++ (toks.take b).drop a := by
    conv_lhs => rw [← List.take_append_drop a (toks.take b)]
    rw [List.take_take, Nat.min_eq_left h]
  conv_lhs => rw [this]
  simp

theorem pre_succ {a : Nat} {t : Token} (h : toks[a]? = some t) :
    pre w toks (a + 1) = pre w toks a + w t := by
  unfold pre
  rw [List.take_add_one, h]
  simp

theorem unit_weight {s : PS} (hs : s.WF toks) {t : Token} (ht : toks[s.pos]? = some t) :
    pre w toks (trailEnd toks s.pos) = pre w toks (leadStart toks s.pos) +
      ((Spec.leadingComments toks s.pos).map w).sum + w t + ((trailingComments toks s.pos).map w).sum := by
  have hp := hs.inp
  unfold PS.In at hp
  have h1 := pre_add (w := w) (toks := toks) hs.le
  have h2 := pre_succ (w := w) ht
  have h3 := pre_add (w := w) (toks := toks) (a := s.pos + 1) (b := trailEnd toks s.pos)
    (by unfold trailEnd; omega)
  rw [trailing_slice hp] at h3
  have h4 : (toks.take s.pos).drop (leadStart toks s.pos) = Spec.leadingComments toks s.pos := rfl
  rw [h4] at h1
  omega

theorem mk_weight {s : PS} (t : Option Token) (ty : NodeType) {ks : Kids}
    (hk : ents ks = commentEnts toks s.pos) :
    Wt w [.mk t ty ks] = twt w (.mk t ty ks) + (((Spec.leadingComments toks s.pos).map w).sum +
      ((trailingComments toks s.pos).map w).sum) := by
  have hn : nodes (.mk t ty ks) = .mk t ty ks :: (Spec.leadingComments toks s.pos ++
      trailingComments toks s.pos).map cnode := by
    rw [nodes_eq]
    show _ :: (ents ks).flatMap _ = _
    rw [hk, commentEnts_nodes]
  unfold Wt
  rw [List.flatMap_cons, List.flatMap_nil, List.append_nil, hn, List.map_cons, List.sum_cons, twt_cnode,
    List.map_append, List.sum_append]

theorem carries_of_ents {s : PS} (hs : s.WF toks) {n : Node} (ht : n.tok = toks[s.pos]?)
    (hk : ents n.kids = commentEnts toks s.pos) : Carries toks s.pos n := by
  have hl : childrenAt n .k_leading_comments = (Spec.leadingComments toks s.pos).map cnode := by
    rw [childrenAt_ents, hk]
    unfold commentEnts
    by_cases h1 : Spec.leadingComments toks s.pos = [] <;>
      by_cases h2 : trailingComments toks s.pos = [] <;> simp [h1, h2]
  have hr : childrenAt n .k_trailing_comments = (trailingComments toks s.pos).map cnode := by
    rw [childrenAt_ents, hk]
    unfold commentEnts
    by_cases h1 : Spec.leadingComments toks s.pos = [] <;>
      by_cases h2 : trailingComments toks s.pos = [] <;> simp [h1, h2]
  refine ⟨ht, hs.inp, hl, hr, ?_, ?_⟩
  · intro h1
    rw [arrayAt_look, hk]
    unfold commentEnts
    by_cases h2 : trailingComments toks s.pos = [] <;> simp [h1, h2, look]
  · intro h2
    rw [arrayAt_look, hk]
    unfold commentEnts
    by_cases h1 : Spec.leadingComments toks s.pos = [] <;> simp [h1, h2, look]

theorem testBit_commentKeys {k : Key} : commentKeys.testBit k.ctorIdx = true ↔ IsCommentKey k := by
  unfold commentKeys IsCommentKey
  rw [testBit_keysMask]
  constructor
  · rintro ⟨k', hk, h⟩
    have := key_inj h
    subst this
    simpa using hk
  · intro h
    exact ⟨k, by simpa using h, rfl⟩

theorem commentKey_not_semi {k : Key} (h : IsCommentKey k) : k ≠ .k_semicolon ∧ k ≠ .k_comma := by
  rcases h with rfl | rfl <;> decide

theorem leaf_closed {c : Node} (h : CommentLeaf c) : Closed U toks c := by
  obtain ⟨t, rfl, ht⟩ := h
  intro m hm
  change m ∈ nodes (cnode t) at hm
  rw [nodes_cnode] at hm
  simp at hm; subst hm
  exact .inl ⟨t, rfl, ht⟩

/-- A node made of the current token and its comments. -/
theorem mk_is {s : PS} (hs : s.WF toks) {t : Token} (ht : toks[s.pos]? = some t) {ty : NodeType} {ks : Kids}
    (hk : ents ks = commentEnts toks s.pos) (hty : ty ≠ .EOF ∧ ty ≠ .Comment)
    (hl : LitOk U (.mk (some t) ty ks)) {m : Mask} (hm : m.testBit (cls U t) = true)
    {as : List Alt} (ha : ⟨ty, 0, commentKeys, 0, m⟩ ∈ as) :
    Is U toks as (.mk (some t) ty ks) ∧ Fresh U toks s (.mk (some t) ty ks) := by
  have hmem : ∀ e ∈ ents (Node.mk (some t) ty ks).kids, IsCommentKey e.1 ∧ e.2.1 = true ∧
      ∀ c ∈ e.2.2, CommentLeaf c := by
    intro e he
    change e ∈ ents ks at he
    rw [hk] at he
    exact mem_commentEnts hs he
  refine ⟨⟨⟨⟨hty, ?_, hl, .inr ⟨s.pos, carries_of_ents hs ht.symm hk⟩⟩, ?_⟩, _, ha, ⟨rfl, ?_, ?_, ?_, ?_⟩⟩,
    ⟨ht.symm, fun e he => (hmem e he).1, ?_⟩⟩
  · intro e he c hc
    obtain ⟨h1, h2, h3⟩ := hmem e he
    exact ⟨fun _ => h3 c hc, fun h => absurd h1 h, fun h => absurd h (commentKey_not_semi h1).1,
      fun h => absurd h (commentKey_not_semi h1).2, fun _ _ h => absurd h1 h,
      fun _ _ _ _ h => absurd h1 h⟩
  · intro e he c hc
    exact leaf_closed ((hmem e he).2.2 c hc)
  · intro k h
    rw [arrayAt_look] at h
    rcases hl : look k (ents (Node.mk (some t) ty ks).kids) with _ | ⟨b, u⟩
    · simp [hl] at h
    · have := (hmem _ (mem_of_look hl)).2.1
      simp [hl] at h
      simp_all
  · intro k h
    rw [arrayAt_look] at h
    rcases hl : look k (ents (Node.mk (some t) ty ks).kids) with _ | ⟨b, u⟩
    · simp [hl] at h
    · exact testBit_commentKeys.2 (hmem _ (mem_of_look hl)).1
  · intro k h
    simp at h
  · exact hm
  · intro w
    rw [mk_weight (w := w) (some t) ty hk, unit_weight hs ht]
    simp only [twt, Node.tok]
    omega

theorem getToken_zero {s : PS} (hs : s.In toks) {t : Token} (h : getToken toks s 0 = .ok t) :
    toks[s.pos]? = some t := by
  unfold getToken getOffsetIndex tokAt at h
  simp only [↓reduceIte] at h
  unfold PS.In at hs
  rw [List.getElem?_eq_getElem hs] at h ⊢
  simp only [Out.ok.injEq] at h
  rw [h]

theorem getToken_zero' {s : PS} {t : Token} (h : toks[s.pos]? = some t) : getToken toks s 0 = .ok t := by
  unfold getToken getOffsetIndex tokAt
  simp only [↓reduceIte, h]

theorem typeOk_iff {nt : NodeType} (h : typeOk nt = true) :
    nt ≠ .EOF ∧ nt ≠ .Comment ∧ nt ≠ .NullLiteral ∧ nt ≠ .BooleanLiteral ∧ nt ≠ .Parameter ∧
      nt ≠ .Template := by
  simp only [typeOk, Bool.not_eq_true', Bool.or_eq_false_iff] at h
  obtain ⟨⟨⟨⟨⟨h1, h2⟩, h3⟩, h4⟩, h5⟩, h6⟩ := h
  refine ⟨?_, ?_, ?_, ?_, ?_, ?_⟩ <;> rintro rfl
  · revert h1; decide
  · revert h2; decide
  · revert h3; decide
  · revert h4; decide
  · revert h5; decide
  · revert h6; decide

theorem litOk_plain {n : Node} (h : typeOk n.ty = true) (ha : n.ty ≠ .Asterisk) : LitOk U n := by
  obtain ⟨_, _, h3, h4, h5, h6⟩ := typeOk_iff h
  exact ⟨fun h => absurd h h3, fun h => absurd h h4, fun h => absurd h h5, fun h => absurd h h6,
    fun h => absurd h ha⟩

/-- The outcome of `construct_node`. -/
def ConstructOk (U : Unicode) (toks : List Token) (s : PS) (as : List Alt) : Out Node → Prop
  | .ok n => Is U toks as n ∧ Fresh U toks s n
  | .err _ => True
  | .panic _ => False
  | .timeout => False

theorem construct_sound {s : PS} (hs : s.WF toks) {nt : NodeType} (hty : typeOk nt = true)
    (hast : nt ≠ .Asterisk) {t0 t1 : Mask} (hm : MaskOk U toks t0 t1 s) :
    ConstructOk U toks s (constructAlts nt t0) (construct U toks s nt) := by
  obtain ⟨t, ht, hc⟩ := hs.tok
  have hg := getToken_zero' ht
  have hm0 := hm.m0 t hg
  unfold construct
  rw [hg]
  dsimp only
  obtain ⟨hE, hC, hrest⟩ := typeOk_iff hty
  rw [if_neg hE]
  unfold constructAlts
  split
  · next hu =>
    have := tyEq_iff.1 hu
    subst this
    rw [if_pos rfl]
    -- the type is one of those in the table
    have key : ∀ ty, (⟨ty, 0, commentKeys, 0, t0⟩ : Alt) ∈ constructAlts .Unknown t0 →
        (ty ≠ .EOF ∧ ty ≠ .Comment) → (∀ ks, LitOk U (.mk (some t) ty ks)) →
        ConstructOk U toks s (constructAlts .Unknown t0) (attachComments toks s (Node.new t ty)) := by
      intro ty h1 h2 h3
      obtain ⟨ks, hk, he⟩ := attach_spec hs (some t) ty
      unfold Node.new
      rw [hk]
      exact mk_is hs ht he h2 (h3 ks) hm0 h1
    unfold constructAlts at key
    rw [if_pos hu] at key
    have hplain : ∀ ty, typeOk ty = true → ty ≠ .Asterisk → ∀ ks, LitOk U (.mk (some t) ty ks) :=
      fun ty h h' ks => litOk_plain (n := .mk (some t) ty ks) h h'
    unfold classify
    by_cases h1 : t.isIdentifier U = true
    · rw [if_pos h1]
      exact key _ (by simp) (by decide) (hplain _ (by decide) (by decide))
    rw [if_neg h1]
    by_cases h2 : t.isNumeric = true
    · rw [if_pos h2]
      exact key _ (by simp) (by decide) (hplain _ (by decide) (by decide))
    rw [if_neg h2]
    by_cases h3 : t.isString = true
    · rw [if_pos h3]
      exact key _ (by simp) (by decide) (hplain _ (by decide) (by decide))
    rw [if_neg h3]
    by_cases h4 : t.isBoolean U = true
    · rw [if_pos h4]
      exact key _ (by simp) (by decide) (fun ks => ⟨(fun h => by cases h), fun _ => ⟨t, rfl, h4⟩,
        (fun h => by cases h), (fun h => by cases h), (fun h => by cases h)⟩)
    rw [if_neg h4]
    by_cases h5 : t.isParameter = true
    · rw [if_pos h5]
      exact key _ (by simp) (by decide) (fun ks => ⟨(fun h => by cases h), (fun h => by cases h),
        fun _ => ⟨t, rfl, h5⟩, (fun h => by cases h), (fun h => by cases h)⟩)
    rw [if_neg h5]
    by_cases h6 : t.isTemplate = true
    · rw [if_pos h6]
      exact key _ (by simp) (by decide) (fun ks => ⟨(fun h => by cases h), (fun h => by cases h),
        (fun h => by cases h), fun _ => ⟨t, rfl, h6⟩, (fun h => by cases h)⟩)
    rw [if_neg h6]
    by_cases h7 : t.upper U = Kw.lit .NULL
    · rw [if_pos h7]
      exact key _ (by simp) (by decide) (fun ks => ⟨fun _ => ⟨t, rfl, h7⟩, (fun h => by cases h),
        (fun h => by cases h), (fun h => by cases h), (fun h => by cases h)⟩)
    rw [if_neg h7]
    rcases getToken_cases toks s hs.inp 1 with ⟨i, u, _, h8, _⟩ | ⟨_, u, _, _, h8⟩
    · rw [h8]
      dsimp only
      by_cases h9 : u.literal = Kw.lit .sym_lparen ∨ u.literal = Kw.lit .sym_dot
      · rw [if_pos h9]
        exact key _ (by simp) (by decide) (hplain _ (by decide) (by decide))
      · rw [if_neg h9]
        exact key _ (by simp) (by decide) (hplain _ (by decide) (by decide))
    · rw [h8]
      trivial
  · next hu =>
    have : ¬ nt = .Unknown := fun h => hu (tyEq_iff.2 h)
    rw [if_neg this]
    obtain ⟨ks, hk, he⟩ := attach_spec hs (some t) nt
    unfold Node.new
    rw [hk]
    exact mk_is hs ht he ⟨hE, hC⟩ (litOk_plain (n := .mk (some t) nt ks) hty hast) hm0 (by simp)

/-- `Node::empty`. -/
theorem empty_is {nt : NodeType} (hty : typeOk nt = true) (hast : nt ≠ .Asterisk) :
    Is U toks [⟨nt, 0, 0, 0, bit NOTOK⟩] (Node.empty nt) := by
  obtain ⟨hE, hC, hrest⟩ := typeOk_iff hty
  refine ⟨⟨⟨⟨hE, hC⟩, ?_, litOk_plain (n := Node.empty nt) hty hast, .inl ⟨rfl, rfl, rfl⟩⟩, ?_⟩,
    _, List.mem_singleton.2 rfl, ⟨rfl, ?_, ?_, ?_, ?_⟩⟩
  · intro e he; simp [Node.empty, Node.kids, ents] at he
  · intro e he; simp [Node.empty, Node.kids, ents] at he
  · intro k h; simp [Node.empty, Node.kids, arrayAt] at h
  · intro k h; simp [Node.empty, Node.kids, arrayAt] at h
  · intro k h; simp at h
  · simp [nodeCls, Node.empty, Node.tok, testBit_bit]

end Verif.AI
