import Verif.Proofs.ExprAtom
/-! The tokens of a shape fill the cells of its window. -/
namespace Verif.Sym
open Core Interp Spec
open Slow (StandAt)

/-- A gap from `q` to `r` is parsed by one call. -/
def GapAt (U : Unicode) (T : List Token) (H : Nat → Node) (V : Nat → List Node) (fuel D : Nat) (g : Gap) (q r : Nat) : Prop :=
  ∀ N, D ≤ N → match g with
    | .expr p al h => ∀ a : Bool, (∀ b, al = some b → a = b) → callN U Program.defs T fuel N .parse_expr
        [.nat p, .bool a, .bool false, .bool false, .bool true] ⟨q, [], []⟩ = .ok (.node (H h), ⟨r, [], []⟩)
    | .exprs al h => ∀ (ks : List Kw) (a : Bool), (∀ b, al = some b → a = b) → firsts.all (fun b => !b.inKws ks) = true →
        callN U Program.defs T fuel N .parse_exprs [.kws ks, .bool a, .bool true] ⟨q, [], []⟩ =
          .ok (.vec (V h), ⟨r, [], []⟩)
    | .body ks h => callN U Program.defs T fuel N .parse_keyword_with_statements [.kws ks] ⟨q, [], []⟩ =
          .ok (.node (H h), ⟨r, [], []⟩)

/-- The token of a cell is known. -/
def CellOk (U : Unicode) (T : List Token) (c : Cell) (q : Nat) : Prop :=
  c.bases ≠ [] → ∃ t, T[q]? = some t ∧ ∃ b ∈ c.bases, IsBase U T q t b

section
variable (U : Unicode) (T : List Token) (H : Nat → Node) (V : Nat → List Node) (fuel D : Nat)

/-- A cell at `q` with others after it. -/
def Lay1 (c : Cell) (q : Nat) (qs : List Nat) : Prop :=
  CellOk U T c q ∧ q + 1 < T.length ∧ (c.gap = none → ∀ q', qs.head? = some q' → q' = q + 1) ∧
    ∀ g, c.gap = some g → GapAt U T H V fuel D g q (qs.headD 0)

/-- The cells are at these positions. -/
def Lay : List Cell → List Nat → Prop
  | [], [] => True
  | c :: cs, q :: qs => Lay1 U T H V fuel D c q qs ∧ Lay cs qs
  | _, _ => False
end

section
variable {U : Unicode} {T : List Token} {H : Nat → Node} {V : Nat → List Node} {fuel D : Nat}

theorem Lay.get : ∀ {cs : List Cell} {qs : List Nat}, Lay U T H V fuel D cs qs → ∀ {i : Nat} {c : Cell}, cs[i]? = some c →
    Lay1 U T H V fuel D c (qs.getD i 0) (qs.drop (i + 1))
  | [], _, _, _, _, hc => by simp at hc
  | _ :: _, [], h, _, _, _ => h.elim
  | c' :: cs, q :: qs, h, 0, c, hc => by
    simp at hc
    subst hc
    simpa using h.1
  | c' :: cs, q :: qs, h, i + 1, c, hc => by
    simpa using Lay.get h.2 (i := i) (by simpa using hc)

theorem Lay.length : ∀ {cs : List Cell} {qs : List Nat}, Lay U T H V fuel D cs qs → qs.length = cs.length
  | [], [], _ => rfl
  | [], _ :: _, h => h.elim
  | _ :: _, [], h => h.elim
  | _ :: _, _ :: _, h => by simp [Lay.length h.2]

theorem headD_drop (qs : List Nat) (i : Nat) : (qs.drop i).headD 0 = qs.getD i 0 := by
  rw [List.headD_eq_head?_getD, List.head?_drop, List.getD_eq_getElem?_getD]

theorem view_of {w : Window} {I : Itp} (hnc : ∀ t ∈ I.T, t.isComment = false) (hA : Lex.Apart I.T) {fuel D : Nat}
    (hL : Lay I.U I.T I.H I.V fuel D w.cells I.pos)
    (hl : ∀ b, w.leftId = some b → ((I.H 0).leftmostType == .Identifier) = b) (h2 : w.two = true → ∀ i, (I.V i).length ≠ 1)
    (lo : w.lo ≤ I.n) (hi : I.n ≤ w.hi) (ks : firsts.all (fun b => !b.inKws I.ks) = true) : View w I where
  nc := hnc
  apart := hA
  tok := fun i c hc hb => (hL.get hc).1 hb
  succ := by
    intro i c hc hg hi
    have hlen := hL.length
    refine (hL.get hc).2.2.1 hg _ ?_
    rw [List.head?_drop]
    unfold Itp.at_
    rw [List.getD_eq_getElem?_getD, List.getElem?_eq_getElem (by omega)]
    rfl
  more := by
    intro i hi
    exact (hL.get (List.getElem?_eq_getElem hi)).2.1
  leftId := hl
  two := h2
  lo := lo
  hi := hi
  ks := ks

theorem gapOk_of {w : Window} {I : Itp} {fuel D : Nat} (hL : Lay I.U I.T I.H I.V fuel D w.cells I.pos) :
    GapOk w I fuel D := by
  intro i bs g hc N hN
  have := (hL.get hc).2.2.2 g rfl N hN
  rw [headD_drop] at this
  cases g <;> exact this

end

/-- The positions of the cells of a shape. -/
def posOf : List Item → List Operand → Nat → List Nat
  | [], _, _ => []
  | .tok _ :: is, os, q => q :: posOf is os (q + 1)
  | .name :: is, o :: os, q => q :: posOf is os (q + o.width)
  | _ :: is, o :: os, q => q :: (q + o.width - 1) :: posOf is os (q + o.width)
  | _, [], _ => []

theorem vocab_of {l : Str} (h : Base.lit l ∈ tailNexts ++ firsts) : l ∈ vocab :=
  List.mem_append_left _ (List.mem_filterMap.2 ⟨.lit l, h, rfl⟩)

theorem nexts_name {b : Base} (h : b ∈ nexts) : b ∈ nameNexts :=
  List.mem_cons_of_mem _ (List.mem_cons_of_mem _ (List.mem_append_left _ h))
theorem name_tail {b : Base} (h : b ∈ nameNexts) : b ∈ tailNexts := List.mem_cons_of_mem _ (List.mem_cons_of_mem _ h)

/-- The first token of an expression. -/
theorem first_of {U : Unicode} (hU : U.Lawful) {T : List Token} : ∀ (e : Ex) {p q : Nat}, e.Ok U p → StandAt T q e.words →
    ∃ t, T[q]? = some t ∧ ∃ b ∈ firsts, IsBase U T q t b ∧ (e.beginsNot = false → b ∈ firstsPlain)
  | .atom l ty, p, q, h, hs => by
    obtain ⟨t, h1, h2⟩ := hs 0 l rfl
    have hf := (atom_first hU h).1
    exact ⟨t, h1, _, List.mem_filter.1 hf |>.1, atom_base hU h h2, fun _ => hf⟩
  | .pre s as, p, q, h, hs => by
    have hall : ∀ s ∈ prefixes, firstOk s = true := by decide +kernel
    have := hall s h.1
    unfold firstOk at this
    split at this
    · rename_i l is hi
      simp only [Bool.and_eq_true, List.contains_iff_mem] at this
      have hw : (Ex.pre s as).words = l :: weave is as.words := by
        simp only [Ex.words, hi, weave]
      rw [hw] at hs
      obtain ⟨t, h1, h2⟩ := hs 0 l rfl
      refine ⟨t, h1, _, this.2, litOk_of hU h2 (vocab_of (List.mem_append_right _ this.2)), ?_⟩
      intro hb
      refine List.mem_filter.2 ⟨this.2, ?_⟩
      unfold Ex.beginsNot at hb
      rw [hw] at hb
      simp only [List.head?_cons, beq_eq_false_iff_ne, ne_eq, Option.some.injEq] at hb
      simpa using hb
    · cases this
  | .post x s as, p, q, h, hs => by
    obtain ⟨t, h1, b, h2, h3, h4⟩ := first_of hU x h.2.2.1 (StandAt.left hs)
    refine ⟨t, h1, b, h2, h3, fun hb => h4 ?_⟩
    unfold Ex.beginsNot at hb ⊢
    simp only [Ex.words] at hb
    cases hx : x.words with
    | nil => rfl
    | cons l ls => rw [hx] at hb; exact hb

theorem words_pos {U : Unicode} : ∀ (e : Ex) {p : Nat}, e.Ok U p → 1 ≤ e.words.length
  | .atom l ty, p, h => Nat.le_refl _
  | .pre s as, p, h => by
    have hall : ∀ s ∈ prefixes, firstOk s = true := by decide +kernel
    have := hall s h.1
    unfold firstOk at this
    split at this
    · rename_i l is hi
      simp [Ex.words, hi, weave]
    · cases this
  | .post x s as, p, h => by
    have := words_pos x h.2.2.1
    simp only [Ex.words, List.length_append]
    omega

theorem exs_pos {U : Unicode} : ∀ (es : Exs) {s : Place}, es.Ok U s → 1 ≤ es.words.length
  | .one e, s, h => by
    cases s with
    | name =>
      obtain ⟨l, rfl, _⟩ := h
      exact Nat.le_refl _
    | sub b p n => exact words_pos e h.1
    | list k => exact words_pos e h
    | list2 => exact h.elim
  | .cons e es, s, h => by
    simp only [Exs.words, List.length_append, List.length_cons]
    omega
  | .last e t, s, h => by
    cases t <;> simp only [Exs.words, Tail.words, List.length_append, List.length_cons] <;> omega
  | .more e t es, s, h => by
    simp only [Exs.words, List.length_append, List.length_cons]
    omega

/-- The first token of a list. -/
theorem exs_first {U : Unicode} (hU : U.Lawful) {T : List Token} {es : Exs} {q : Nat} {k : ListKind} (h : es.Ok U (.list k))
    (hs : StandAt T q es.words) : ∃ t, T[q]? = some t ∧ ∃ b ∈ firsts, IsBase U T q t b := by
  have : ∃ e : Ex, e.Ok U loosest ∧ StandAt T q e.words := by
    cases es with
    | one e => exact ⟨e, h, hs⟩
    | cons e es => exact ⟨e, h.1, StandAt.left hs⟩
    | last e t => exact ⟨e, h.1, StandAt.left hs⟩
    | more e t es => exact ⟨e, h.1, StandAt.left (StandAt.left hs)⟩
  obtain ⟨e, h1, h2⟩ := this
  obtain ⟨t, h3, b, h4, h5, _⟩ := first_of hU e h1 h2
  exact ⟨t, h3, b, h4, h5⟩

/-- What stands at `j`, after an expression. -/
structure Follow (U : Unicode) (T : List Token) (j : Nat) (b : Base) (f : Nat) : Prop where
  base : ∃ t, T[j]? = some t ∧ IsBase U T j t b
  more : j + 1 < T.length
  prec : b.prec = some f

/-- The call of `parse_expr` for an expression. -/
def ExCall (U : Unicode) (T : List Token) (fuel : Nat) (e : Ex) : Prop :=
  ∀ (q p f : Nat) (b : Base), StandAt T q e.words → Follow U T (q + e.words.length) b f → b ∈ nameNexts → e.Closes f →
    e.Ok U p → 1 ≤ p → p ≤ loosest → p ≤ f → ∀ N, 4 * e.words.length ≤ N → ∀ a : Bool, (b ∈ nexts ∨ a = false) →
    callN U Program.defs T fuel N .parse_expr [.nat p, .bool a, .bool false, .bool false, .bool true] ⟨q, [], []⟩ =
      .ok (.node (e.tree T q), ⟨q + e.words.length - 1, [], []⟩)

/-- The call of `parse_exprs` for a list. -/
def ExsCall (U : Unicode) (T : List Token) (fuel : Nat) (es : Exs) : Prop :=
  ∀ (k : ListKind) (q : Nat) (b : Base), StandAt T q es.words → Follow U T (q + es.words.length) b loosest → b ∈ closers →
    es.Ok U (.list k) → ∀ N, 4 * es.words.length + 1 ≤ N → ∀ (ks : List Kw) (a : Bool), (k = .named → a = true) →
    firsts.all (fun b => !b.inKws ks) = true →
    callN U Program.defs T fuel N .parse_exprs [.kws ks, .bool a, .bool true] ⟨q, [], []⟩ =
      .ok (.vec (es.trees T q), ⟨q + es.words.length - 1, [], []⟩)

/-- The operands are parsed. -/
def ArgsGood (U : Unicode) (T : List Token) (fuel : Nat) : Args → Prop
  | .nil => True
  | .cons es as => (ExsCall U T fuel es ∧ ∀ e, es = .one e → ExCall U T fuel e) ∧ ArgsGood U T fuel as

theorem weave_length : ∀ (is : List Item) {as : Args} {U : Unicode}, as.Ok U (places is) →
    (weave is as.words).length = toks is + (as.words.map List.length).sum
  | [], as, U, h => by
    cases as with
    | nil => rfl
    | cons _ _ => exact h.elim
  | .tok l :: is, as, U, h => by
    simp only [weave, List.length_cons, weave_length is h, toks, List.countP_cons]
    simp
    omega
  | .name :: is, as, U, h => by
    cases as with
    | nil => exact h.elim
    | cons es as => simp [weave, Args.words, weave_length is h.2, toks, List.countP_cons]; omega
  | .sub _ :: is, as, U, h => by
    cases as with
    | nil => exact h.elim
    | cons es as => simp [weave, Args.words, weave_length is h.2, toks, List.countP_cons]; omega
  | .plain _ :: is, as, U, h => by
    cases as with
    | nil => exact h.elim
    | cons es as => simp [weave, Args.words, weave_length is h.2, toks, List.countP_cons]; omega
  | .list _ :: is, as, U, h => by
    cases as with
    | nil => exact h.elim
    | cons es as => simp [weave, Args.words, weave_length is h.2, toks, List.countP_cons]; omega
  | .list2 :: is, as, U, h => by
    cases as with
    | nil => exact h.elim
    | cons es as => simp [weave, Args.words, weave_length is h.2, toks, List.countP_cons]; omega

/-- The levels of calls suffice for the operands. -/
def Deep (D : Nat) : List Item → List (List Str) → Prop
  | [], _ => True
  | .tok _ :: is, ws => Deep D is ws
  | .list _ :: is, w :: ws => 4 * w.length + 1 ≤ D ∧ Deep D is ws
  | .list2 :: is, w :: ws => 4 * w.length + 1 ≤ D ∧ Deep D is ws
  | _ :: is, w :: ws => 4 * w.length ≤ D ∧ Deep D is ws
  | _ :: _, [] => True

theorem deep_of {D m : Nat} : ∀ (is : List Item) (ws : List (List Str)), (ws.map List.length).sum ≤ m → 4 * m ≤ D →
    (4 * m + 1 ≤ D ∨ is.all (fun | .list _ => false | .list2 => false | _ => true) = true) → Deep D is ws
  | [], _, _, _, _ => trivial
  | .tok _ :: is, ws, h1, h2, h3 => deep_of is ws h1 h2 (by simpa using h3)
  | .name :: is, [], h1, h2, h3 => trivial
  | .sub _ :: is, [], h1, h2, h3 => trivial
  | .plain _ :: is, [], h1, h2, h3 => trivial
  | .list _ :: is, [], h1, h2, h3 => trivial
  | .list2 :: is, [], h1, h2, h3 => trivial
  | .name :: is, w :: ws, h1, h2, h3 => by
    simp at h1
    exact ⟨by omega, deep_of is ws (by omega) h2 (by simpa using h3)⟩
  | .sub _ :: is, w :: ws, h1, h2, h3 => by
    simp at h1
    exact ⟨by omega, deep_of is ws (by omega) h2 (by simpa using h3)⟩
  | .plain _ :: is, w :: ws, h1, h2, h3 => by
    simp at h1
    exact ⟨by omega, deep_of is ws (by omega) h2 (by simpa using h3)⟩
  | .list _ :: is, w :: ws, h1, h2, h3 => by
    simp at h1 h3
    exact ⟨by omega, deep_of is ws (by omega) h2 (.inl h3)⟩
  | .list2 :: is, w :: ws, h1, h2, h3 => by
    simp at h1 h3
    exact ⟨by omega, deep_of is ws (by omega) h2 (.inl h3)⟩

theorem deep_shape {U : Unicode} {is : List Item} {as : Args} (h : enoughToks is = true) (ha : as.Ok U (places is)) {W : Nat}
    (hW : (weave is as.words).length ≤ W) : Deep (4 * W - 1 - inl is) is as.words := by
  have h1 := weave_length is ha
  unfold enoughToks at h
  simp only [Bool.and_eq_true, Bool.or_eq_true, decide_eq_true_eq] at h
  have hi : inl is = 8 ∧ 3 ≤ toks is ∨ inl is = 3 := by
    unfold inl
    split
    · exact .inl ⟨rfl, by assumption⟩
    · exact .inr rfl
  refine deep_of (m := (as.words.map List.length).sum) is _ (Nat.le_refl _) (by omega) ?_
  rcases h.2 with h2 | h2
  · left; omega
  · exact .inr h2

theorem open_ne_nil {U : Unicode} : ∀ {is : List Item} {as : Args} {b : Nat}, openBound is = some b → as.Ok U (places is) →
    as ≠ .nil
  | [], _, _, h, _ => by cases h
  | .tok _ :: is, as, b, h, ha => by
    have : openBound is = some b := by cases is <;> exact h
    exact open_ne_nil this ha
  | .name :: is, as, b, h, ha => by rintro rfl; exact ha.elim
  | .sub _ :: is, as, b, h, ha => by rintro rfl; exact ha.elim
  | .plain _ :: is, as, b, h, ha => by rintro rfl; exact ha.elim
  | .list _ :: is, as, b, h, ha => by rintro rfl; exact ha.elim
  | .list2 :: is, as, b, h, ha => by rintro rfl; exact ha.elim

theorem head_pos {U : Unicode} {T : List Token} : ∀ {is : List Item} {as : Args} {q : Nat}, as.Ok U (places is) →
    (posOf is (as.operands T) q ++ [q + (weave is as.words).length]).head? = some q
  | [], as, q, h => by
    cases as with
    | nil => rfl
    | cons _ _ => exact h.elim
  | .tok _ :: is, as, q, h => rfl
  | .name :: is, .nil, q, h => h.elim
  | .sub _ :: is, .nil, q, h => h.elim
  | .plain _ :: is, .nil, q, h => h.elim
  | .list _ :: is, .nil, q, h => h.elim
  | .list2 :: is, .nil, q, h => h.elim
  | .name :: is, .cons _ _, q, h => rfl
  | .sub _ :: is, .cons _ _, q, h => rfl
  | .plain _ :: is, .cons _ _, q, h => rfl
  | .list _ :: is, .cons _ _, q, h => rfl
  | .list2 :: is, .cons _ _, q, h => rfl

section
variable {U : Unicode} {T : List Token} {H : Nat → Node} {V : Nat → List Node} {fuel D : Nat}

theorem lay_gap {bs : List Base} {g : Gap} {q w : Nat} {cells : List Cell} {rest : List Nat}
    (hc : CellOk U T ⟨bs, some g⟩ q) (hw : 1 ≤ w) (hT : q + w < T.length)
    (hg : GapAt U T H V fuel D g q (q + w - 1)) (hh : rest.head? = some (q + w))
    (hL : Lay U T H V fuel D cells rest) :
    Lay U T H V fuel D (⟨bs, some g⟩ :: ⟨[], none⟩ :: cells) (q :: (q + w - 1) :: rest) := by
  refine ⟨⟨hc, by omega, fun h => (by cases h), ?_⟩, ⟨fun h => absurd rfl h, by omega, ?_, fun g h => (by cases h)⟩, hL⟩
  · intro g' h
    cases h
    exact hg
  · intro _ q' hq
    rw [hh] at hq
    cases hq
    omega

theorem follow_tok (hU : U.Lawful) {l : Str} {is : List Item} {ws : List (List Str)} {j f : Nat}
    (hs : StandAt T j (weave (.tok l :: is) ws)) (hn : Base.lit l ∈ nameNexts) (hp : (Base.lit l).prec = some f)
    (hm : j + 1 < T.length) : Follow U T j (.lit l) f := by
  obtain ⟨t, h1, h2⟩ := hs 0 l rfl
  exact ⟨⟨t, h1, litOk_of hU h2 (vocab_of (List.mem_append_left _ (name_tail hn)))⟩, hm, hp⟩

/-- What follows an operand of a shape. -/
theorem sub_follow (hU : U.Lawful) {e : Ex} {bd : Nat} {pl : Bool} {is : List Item} {as : Args} {j f : Nat} {b : Base}
    (hOk : followOk bd is = true) (hok : Exs.Ok U (.sub bd pl (nextLevel is)) (.one e)) (ha : as.Ok U (places is))
    (hs : StandAt T j (weave is as.words)) (hend : Follow U T (j + (weave is as.words).length) b f)
    (ho : is = [] → bd ≤ f ∧ e.Closes f ∧ b ∈ nameNexts) :
    ∃ b' f', Follow U T j b' f' ∧ b' ∈ nameNexts ∧ e.Closes f' ∧ bd ≤ f' ∧ (b' ∈ nexts ∨ subFlag is = some false) := by
  unfold followOk at hOk
  split at hOk
  · obtain ⟨h1, h2, h3⟩ := ho rfl
    refine ⟨b, f, ?_, h3, h2, h1, .inr rfl⟩
    cases as with
    | nil => exact hend
    | cons _ _ => exact ha.elim
  · rename_i l is'
    simp only [Bool.and_eq_true, beq_iff_eq, List.contains_iff_mem, decide_eq_true_eq] at hOk
    obtain ⟨⟨⟨h1, h2⟩, h3⟩, h4⟩ := hOk
    have := hend.more
    refine ⟨.lit l, levelOf l, follow_tok hU hs h2 h3 (by omega), h2, hok.2.2 _ rfl, h4, ?_⟩
    by_cases hn : nexts.contains (.lit l) = true
    · exact .inl (List.contains_iff_mem.1 hn)
    · exact .inr (by simp only [subFlag, if_neg hn])
  · cases hOk

theorem list_follow (hU : U.Lawful) {is : List Item} {as : Args} {j f : Nat} {b : Base}
    (hOk : listFollowOk is = true) (ha : as.Ok U (places is)) (hs : StandAt T j (weave is as.words))
    (hend : Follow U T (j + (weave is as.words).length) b f) (hcl : is = [] → b ∈ closers ∧ f = loosest) :
    ∃ b', Follow U T j b' loosest ∧ b' ∈ closers := by
  unfold listFollowOk at hOk
  split at hOk
  · obtain ⟨h1, rfl⟩ := hcl rfl
    refine ⟨b, ?_, h1⟩
    cases as with
    | nil => exact hend
    | cons _ _ => exact ha.elim
  · rename_i l is'
    simp only [Bool.and_eq_true, List.contains_iff_mem] at hOk
    have := hend.more
    have hcl : ∀ b ∈ closers, b ∈ nexts ∧ b.prec = some loosest := by decide +kernel
    obtain ⟨h1, h2⟩ := hcl _ hOk.2
    exact ⟨.lit l, follow_tok hU hs (nexts_name h1) h2 (by omega), hOk.2⟩
  · cases hOk

theorem list_of_list2 {es : Exs} (h : es.Ok U .list2) : es.Ok U (.list .plain) := by
  cases es with
  | one e => exact h.elim
  | cons e es => exact h
  | last e t => exact h.elim
  | more e t es => exact h.elim

/-- The tokens of a shape fill its window. -/
theorem lay_items (hU : U.Lawful) {nxt : List Base} {b : Base} {f : Nat} (hb : b ∈ nxt) {e : Nat} (hend : Follow U T e b f) :
    ∀ (is : List Item) (as : Args) (i q : Nat), as.Ok U (places is) → ArgsGood U T fuel as → itemsOk is = true →
      StandAt T q (weave is as.words) → q + (weave is as.words).length = e →
      (∀ bd, openBound is = some bd → bd ≤ f ∧ as.LastCloses f ∧ b ∈ nameNexts) →
      (noEnd is = true ∨ b ∈ closers ∧ f = loosest) →
      (∀ j, H (i + j) = (((parts is (as.operands T) q).getD j (0, [])).2).headD (Node.empty .Unknown)) →
      (∀ j, V (i + j) = ((parts is (as.operands T) q).getD j (0, [])).2) →
      Deep D is as.words →
      Lay U T H V fuel D (cellsOf is i ++ [⟨nxt, none⟩]) (posOf is (as.operands T) q ++ [e]) := by
  intro is
  have hm := hend.more
  induction is with
  | nil =>
    intro as i q ha hG hI hs he ho hcl hH hV hD
    cases as with
    | cons _ _ => exact ha.elim
    | nil =>
      obtain ⟨t, h1, h2⟩ := hend.base
      exact ⟨⟨fun _ => ⟨t, h1, b, hb, h2⟩, hm, fun _ q' h => (by cases h), fun g h => (by cases h)⟩, trivial⟩
  | cons it is ih =>
    intro as i q ha hG hI hs he ho hcl hH hV hD
    have hopen : ∀ {es : Exs} {as' : Args}, as'.Ok U (places is) → as = .cons es as' →
        (∀ bd, openBound is = some bd → openBound (it :: is) = some bd) →
        ∀ bd, openBound is = some bd → bd ≤ f ∧ as'.LastCloses f ∧ b ∈ nameNexts := by
      rintro es as' ha' rfl hob bd hbd
      obtain ⟨h1, h2, h3⟩ := ho bd (hob bd hbd)
      refine ⟨h1, ?_, h3⟩
      cases as' with
      | nil => exact absurd rfl (open_ne_nil hbd ha')
      | cons _ _ => exact h2
    have hob : ∀ bd, openBound is = some bd → openBound (it :: is) = some bd := by
      intro bd h
      cases is with
      | nil => cases h
      | cons j is => cases it <;> exact h
    have hcl' : noEnd is = true ∨ b ∈ closers ∧ f = loosest := by
      refine hcl.imp_left fun h => ?_
      cases is with
      | nil => rfl
      | cons j is => cases it <;> exact h
    have hgap : ∀ {bd : Nat} {pl : Bool} {bs : List Base} {es : Exs} {as' : Args}, as = .cons es as' →
        es.Ok U (.sub bd pl (nextLevel is)) → as'.Ok U (places is) → (is = [] → openBound [it] = some bd) →
        1 ≤ bd → bd ≤ loosest → followOk bd is = true → itemsOk is = true →
        StandAt T q (es.words ++ weave is as'.words) → q + (es.words ++ weave is as'.words).length = e →
        (∀ j, H (i + j) = (((parts (.sub bd :: is) (as.operands T) q).getD j (0, [])).2).headD (Node.empty .Unknown)) →
        (∀ j, V (i + j) = ((parts (.sub bd :: is) (as.operands T) q).getD j (0, [])).2) →
        (bs = firsts ∨ bs = firstsPlain ∧ pl = true) → 4 * es.words.length ≤ D → Deep D is as'.words →
        Lay U T H V fuel D (⟨bs, some (.expr bd (subFlag is) i)⟩ :: ⟨[], none⟩ :: (cellsOf is (i + 1) ++ [⟨nxt, none⟩]))
          (q :: (q + es.words.length - 1) :: (posOf is (as'.operands T) (q + es.words.length) ++ [e])) := by
      rintro bd pl bs es as' rfl hes ha' hob1 h1 h2 hfo hI' hs he hH hV hbs hD1 hD2
      have hpos := exs_pos es hes
      cases es with
      | cons _ _ => exact hes.elim
      | last _ _ => exact hes.elim
      | more _ _ _ => exact hes.elim
      | one x =>
        rw [List.length_append, ← Nat.add_assoc] at he
        obtain ⟨b', f', g1, g2, g3, g4, g5⟩ := sub_follow hU (b := b) (f := f) hfo hes ha' (StandAt.right hs) (by rw [he]; exact hend) (by
          intro hn
          obtain ⟨k1, k2, k3⟩ := ho bd (by rw [hn]; exact hob1 hn)
          subst hn
          cases as' with
          | cons _ _ => exact ha'.elim
          | nil => exact ⟨k1, k2, k3⟩)
        have hrest := ih as' (i + 1) (q + (Exs.one x).words.length) ha' hG.2 hI' (StandAt.right hs) he
          (hopen ha' rfl hob) hcl' (by intro j; rw [Nat.add_assoc, Nat.add_comm 1 j, hH]; rfl)
          (by intro j; rw [Nat.add_assoc, Nat.add_comm 1 j, hV]; rfl) hD2
        refine lay_gap ?_ hpos (by omega) ?_ ?_ hrest
        · intro _
          obtain ⟨t, k1, b1, k2, k3, k4⟩ := first_of hU x hes.1 (StandAt.left hs)
          rcases hbs with rfl | ⟨rfl, hp⟩
          · exact ⟨t, k1, b1, k2, k3⟩
          · exact ⟨t, k1, b1, k4 (hes.2.1 hp), k3⟩
        · intro N hN a hfl
          rw [show H i = x.tree T q from hH 0]
          exact hG.1.2 x rfl q bd f' b' (StandAt.left hs) g1 g2 g3 hes.1 h1 h2 g4 N (Nat.le_trans hD1 hN) a
            (g5.imp_right (hfl false))
        · rw [← he]
          exact head_pos ha'
    have hlist : ∀ {k : ListKind} {es : Exs} {as' : Args}, as = .cons es as' →
        es.Ok U (.list k) → as'.Ok U (places is) → (is = [] → b ∈ closers ∧ f = loosest) → listFollowOk is = true → itemsOk is = true →
        StandAt T q (es.words ++ weave is as'.words) → q + (es.words ++ weave is as'.words).length = e →
        (∀ j, H (i + j) = (((parts (.list k :: is) (as.operands T) q).getD j (0, [])).2).headD (Node.empty .Unknown)) →
        (∀ j, V (i + j) = ((parts (.list k :: is) (as.operands T) q).getD j (0, [])).2) →
        4 * es.words.length + 1 ≤ D → Deep D is as'.words →
        Lay U T H V fuel D (⟨firsts, some (.exprs (flagFor k) i)⟩ :: ⟨[], none⟩ :: (cellsOf is (i + 1) ++ [⟨nxt, none⟩]))
          (q :: (q + es.words.length - 1) :: (posOf is (as'.operands T) (q + es.words.length) ++ [e])) := by
      rintro k es as' rfl hes ha' hnil hfo hI' hs he hH hV hD1 hD2
      have hpos := exs_pos es hes
      rw [List.length_append, ← Nat.add_assoc] at he
      obtain ⟨b', g1, g2⟩ := list_follow hU (b := b) (f := f) (as := as') hfo ha' (StandAt.right hs) (by rw [he]; exact hend) hnil
      have hrest := ih as' (i + 1) (q + es.words.length) ha' hG.2 hI' (StandAt.right hs) he
        (hopen ha' rfl hob) hcl' (by intro j; rw [Nat.add_assoc, Nat.add_comm 1 j, hH]; rfl)
        (by intro j; rw [Nat.add_assoc, Nat.add_comm 1 j, hV]; rfl) hD2
      refine lay_gap ?_ hpos (by omega) ?_ ?_ hrest
      · intro _
        exact exs_first hU hes (StandAt.left hs)
      · intro N hN ks a hfl hks
        rw [show V i = es.trees T q from hV 0]
        exact hG.1.1 k q b' (StandAt.left hs) g1 g2 hes N (Nat.le_trans hD1 hN) ks a (by rintro rfl; exact hfl true rfl) hks
      · rw [← he]
        exact head_pos ha'
    cases it with
    | tok l =>
      simp only [itemsOk, Bool.and_eq_true, List.contains_iff_mem] at hI
      have hs' : StandAt T (q + 1) (weave is as.words) := StandAt.right (a := [l]) hs
      have he' : q + 1 + (weave is as.words).length = e := by
        rw [← he]; simp only [weave, List.length_cons]; omega
      obtain ⟨t, h1, h2⟩ := hs 0 l rfl
      refine ⟨⟨fun _ => ⟨t, h1, _, List.mem_singleton.2 rfl, ?_⟩, by omega, ?_, fun g h => (by cases h)⟩,
        ih as (i + 1) (q + 1) ha hG hI.2 hs' he' (fun bd hbd => ho bd (hob bd hbd)) hcl'
          (by intro j; rw [Nat.add_assoc, Nat.add_comm 1 j, hH]; rfl)
          (by intro j; rw [Nat.add_assoc, Nat.add_comm 1 j, hV]; rfl) hD⟩
      · have hl := litOk_of hU h2 hI.1
        unfold baseOf
        split
        · rename_i l' is' _
          split
          · rename_i hn
            obtain ⟨rfl, hn⟩ := hn
            obtain ⟨t', k1, k2⟩ := hs' 0 l' rfl
            have hn' : l' ∈ ["IN".toList, "LIKE".toList, "BETWEEN".toList] := by simpa using hn
            have hv : ∀ l ∈ ["IN".toList, "LIKE".toList, "BETWEEN".toList], l ∈ vocab := by decide
            exact ⟨hl, t', l', k1, litOk_of hU k2 (hv _ hn'), hn'⟩
          · exact hl
        · exact hl
      · intro _ q' hq
        rw [← he'] at hq
        have hh := head_pos (T := T) (is := is) (q := q + 1) ha
        have hq := hq.symm.trans hh
        cases hq
        rfl
    | name =>
      cases as with
      | nil => exact ha.elim
      | cons es as =>
        obtain ⟨⟨hes, ha'⟩⟩ := And.intro ha trivial
        cases es with
        | cons _ _ => exact hes.elim
        | last _ _ => exact hes.elim
        | more _ _ _ => exact hes.elim
        | one x =>
          obtain ⟨l, rfl, hl⟩ := hes
          have hs' : StandAt T (q + 1) (weave is as.words) := StandAt.right (a := [l]) hs
          have he' : q + 1 + (weave is as.words).length = e := by
            rw [← he]
            simp only [weave, Args.words, Exs.words, Ex.words, List.length_append, List.length_cons, List.length_nil]
            omega
          obtain ⟨t, h1, h2⟩ := hs 0 l rfl
          refine ⟨⟨fun _ => ⟨t, h1, _, List.mem_singleton.2 rfl, atom_base hU hl h2⟩, by omega, ?_, fun g h => (by cases h)⟩,
            ih as (i + 1) (q + 1) ha' hG.2 hI hs' he' (hopen ha' rfl hob) hcl'
              (by intro j; rw [Nat.add_assoc, Nat.add_comm 1 j, hH]; rfl)
              (by intro j; rw [Nat.add_assoc, Nat.add_comm 1 j, hV]; rfl) hD.2⟩
          intro _ q' hq
          rw [← he'] at hq
          have hh := head_pos (T := T) (q := q + 1) ha'
          have hq := hq.symm.trans hh
          cases hq
          rfl
    | sub bd =>
      simp only [itemsOk, Bool.and_eq_true, decide_eq_true_eq] at hI
      cases as with
      | nil => exact ha.elim
      | cons es as =>
        exact hgap rfl ha.1 ha.2 (fun _ => rfl) hI.1.1.1 hI.1.1.2 hI.1.2 hI.2 hs he hH hV (.inl rfl) hD.1 hD.2
    | plain bd =>
      simp only [itemsOk, Bool.and_eq_true, decide_eq_true_eq] at hI
      cases as with
      | nil => exact ha.elim
      | cons es as =>
        exact hgap rfl ha.1 ha.2 (fun _ => rfl) hI.1.1.1 hI.1.1.2 hI.1.2 hI.2 hs he hH hV (.inr ⟨rfl, rfl⟩) hD.1 hD.2
    | list k =>
      simp only [itemsOk, Bool.and_eq_true] at hI
      cases as with
      | nil => exact ha.elim
      | cons es as => exact hlist rfl ha.1 ha.2 (by rintro rfl; exact hcl.resolve_left (fun h => by cases h)) hI.1 hI.2 hs he hH hV hD.1 hD.2
    | list2 =>
      simp only [itemsOk, Bool.and_eq_true] at hI
      cases as with
      | nil => exact ha.elim
      | cons es as => exact hlist (k := .plain) rfl (list_of_list2 ha.1) ha.2 (by rintro rfl; exact hcl.resolve_left (by decide)) hI.1 hI.2 hs he hH hV hD.1 hD.2

end

end Verif.Sym
