import Verif.Proofs.ExprLay
/-! `parse_expr` and `parse_exprs` give the trees of Spec/Expr.lean. -/
namespace Verif.Sym
open Core Interp Spec
open Slow (StandAt)

theorem pos_item {U : Unicode} {T : List Token} {r : List Nat} : ∀ {is : List Item} {as : Args} {q j : Nat}, as.Ok U (places is) →
    j < is.length →
    (posOf is (as.operands T) q ++ r).getD (cellIdx is j) 0 = ((parts is (as.operands T) q).getD j (0, [])).1
  | [], _, _, _, _, h => by simp at h
  | .tok _ :: is, as, q, 0, ha, _ => rfl
  | .tok _ :: is, as, q, j + 1, ha, h => pos_item (is := is) (as := as) (q := q + 1) (j := j) ha (by simpa using h)
  | .name :: is, .nil, q, j, ha, _ => ha.elim
  | .sub _ :: is, .nil, q, j, ha, _ => ha.elim
  | .plain _ :: is, .nil, q, j, ha, _ => ha.elim
  | .list _ :: is, .nil, q, j, ha, _ => ha.elim
  | .list2 :: is, .nil, q, j, ha, _ => ha.elim
  | .name :: is, .cons _ _, q, 0, ha, _ => rfl
  | .sub _ :: is, .cons _ _, q, 0, ha, _ => rfl
  | .plain _ :: is, .cons _ _, q, 0, ha, _ => rfl
  | .list _ :: is, .cons _ _, q, 0, ha, _ => rfl
  | .list2 :: is, .cons _ _, q, 0, ha, _ => rfl
  | .name :: is, .cons es as, q, j + 1, ha, h =>
    pos_item (is := is) (as := as) (q := q + es.words.length) (j := j) ha.2 (by simpa using h)
  | .sub _ :: is, .cons es as, q, j + 1, ha, h =>
    pos_item (is := is) (as := as) (q := q + es.words.length) (j := j) ha.2 (by simpa using h)
  | .plain _ :: is, .cons es as, q, j + 1, ha, h =>
    pos_item (is := is) (as := as) (q := q + es.words.length) (j := j) ha.2 (by simpa using h)
  | .list _ :: is, .cons es as, q, j + 1, ha, h =>
    pos_item (is := is) (as := as) (q := q + es.words.length) (j := j) ha.2 (by simpa using h)
  | .list2 :: is, .cons es as, q, j + 1, ha, h =>
    pos_item (is := is) (as := as) (q := q + es.words.length) (j := j) ha.2 (by simpa using h)

/-- The last cell of a shape. -/
theorem pos_last {U : Unicode} {T : List Token} : ∀ {is : List Item} {as : Args} {q : Nat}, as.Ok U (places is) → is ≠ [] →
    (posOf is (as.operands T) q).getLast? = some (q + (weave is as.words).length - 1)
  | [], _, _, _, h => absurd rfl h
  | .name :: is, .nil, q, ha, _ => ha.elim
  | .sub _ :: is, .nil, q, ha, _ => ha.elim
  | .plain _ :: is, .nil, q, ha, _ => ha.elim
  | .list _ :: is, .nil, q, ha, _ => ha.elim
  | .list2 :: is, .nil, q, ha, _ => ha.elim
  | .tok l :: [], .nil, q, ha, _ => rfl
  | .tok l :: [], .cons _ _, q, ha, _ => ha.elim
  | .tok l :: i :: is, as, q, ha, _ => by
    have := pos_last (T := T) (is := i :: is) (as := as) (q := q + 1) ha (by simp)
    simp only [posOf, weave, List.length_cons] at this ⊢
    rw [List.getLast?_cons, this]
    simp only [Option.getD_some, Option.some.injEq]
    omega
  | .name :: [], .cons es as, q, ha, _ => by
    cases as with
    | cons _ _ => exact ha.2.elim
    | nil =>
      cases es with
      | cons _ _ => exact ha.1.elim
      | last _ _ => exact ha.1.elim
      | more _ _ _ => exact ha.1.elim
      | one e =>
        obtain ⟨l, rfl, _⟩ := ha.1
        rfl
  | .name :: i :: is, .cons es as, q, ha, _ => by
    have := pos_last (T := T) (is := i :: is) (as := as) (q := q + es.words.length) ha.2 (by simp)
    simp only [posOf, Args.operands, weave, Args.words, List.length_append] at this ⊢
    rw [List.getLast?_cons, this]
    simp only [Option.getD_some, Option.some.injEq]
    omega
  | .sub _ :: is, .cons es as, q, ha, _ => by
    have h1 := exs_pos es ha.1
    simp only [posOf, Args.operands, weave, Args.words, List.length_append]
    cases is with
    | nil =>
      cases as with
      | cons _ _ => exact ha.2.elim
      | nil => simp [posOf, weave]
    | cons i is =>
      have := pos_last (T := T) (is := i :: is) (as := as) (q := q + es.words.length) ha.2 (by simp)
      rw [List.getLast?_cons, List.getLast?_cons, this]
      simp only [Option.getD_some, Option.some.injEq]
      omega
  | .plain _ :: is, .cons es as, q, ha, _ => by
    have h1 := exs_pos es ha.1
    simp only [posOf, Args.operands, weave, Args.words, List.length_append]
    cases is with
    | nil =>
      cases as with
      | cons _ _ => exact ha.2.elim
      | nil => simp [posOf, weave]
    | cons i is =>
      have := pos_last (T := T) (is := i :: is) (as := as) (q := q + es.words.length) ha.2 (by simp)
      rw [List.getLast?_cons, List.getLast?_cons, this]
      simp only [Option.getD_some, Option.some.injEq]
      omega
  | .list _ :: is, .cons es as, q, ha, _ => by
    have h1 := exs_pos es ha.1
    simp only [posOf, Args.operands, weave, Args.words, List.length_append]
    cases is with
    | nil =>
      cases as with
      | cons _ _ => exact ha.2.elim
      | nil => simp [posOf, weave]
    | cons i is =>
      have := pos_last (T := T) (is := i :: is) (as := as) (q := q + es.words.length) ha.2 (by simp)
      rw [List.getLast?_cons, List.getLast?_cons, this]
      simp only [Option.getD_some, Option.some.injEq]
      omega
  | .list2 :: is, .cons es as, q, ha, _ => by
    have h1 := exs_pos es ha.1
    simp only [posOf, Args.operands, weave, Args.words, List.length_append]
    cases is with
    | nil =>
      cases as with
      | cons _ _ => exact ha.2.elim
      | nil => simp [posOf, weave]
    | cons i is =>
      have := pos_last (T := T) (is := i :: is) (as := as) (q := q + es.words.length) ha.2 (by simp)
      rw [List.getLast?_cons, List.getLast?_cons, this]
      simp only [Option.getD_some, Option.some.injEq]
      omega

/-- The results of the gaps of a shape. -/
def holeOf (left : Node) (ps : List (Nat × List Node)) : Nat → Node
  | 0 => left
  | j + 1 => ((ps.getD j (0, [])).2).headD (Node.empty .Unknown)
/-- The results of the gaps of a shape. -/
def holesOf (ps : List (Nat × List Node)) : Nat → List Node
  | 0 => []
  | j + 1 => (ps.getD j (0, [])).2

theorem term_tree {I : Itp} {left : Node} {ps : List (Nat × List Node)} {items : List Item} {off : Nat}
    (hH : I.H = holeOf left ps) (hV : I.V = holesOf ps)
    (hat : ∀ j, j < items.length → I.at_ (off + cellIdx items j) = (ps.getD j (0, [])).1) :
    ∀ f : Form, formOk items.length f = true → ((termOf items off f).ev I).1 = f.tree I.T left ps
  | .left, _ => by simp only [termOf, Term.ev, hH]; rfl
  | .sub i, _ => by simp only [termOf, Term.ev, hH]; rfl
  | .new i ty, h => by
    simp only [termOf, Term.ev, Itp.tok]
    rw [hat i (by simpa [formOk] using h)]; rfl
  | .push n k c, h => by
    simp only [formOk, Bool.and_eq_true] at h
    simp only [termOf, Term.ev, Form.tree, term_tree hH hV hat n h.1, term_tree hH hV hat c h.2]
  | .pushList n k i, h => by
    simp only [termOf, Term.ev, Form.tree, term_tree hH hV hat n h, hV]; rfl
  | .pushNone n k, h => by
    simp only [termOf, Term.ev, Form.tree, term_tree hH hV hat n h]
  | .push1 n k a, h => by
    simp only [formOk, Bool.and_eq_true] at h
    simp only [termOf, Term.ev, Form.tree, term_tree hH hV hat n h.1, term_tree hH hV hat a h.2, List.nil_append]
  | .push2 n k a b, h => by
    simp only [formOk, Bool.and_eq_true] at h
    simp only [termOf, Term.ev, Form.tree, term_tree hH hV hat n h.1.1, term_tree hH hV hat a h.1.2, term_tree hH hV hat b h.2,
      List.nil_append, List.cons_append]
  | .push3 n k a b c, h => by
    simp only [formOk, Bool.and_eq_true] at h
    simp only [termOf, Term.ev, Form.tree, term_tree hH hV hat n h.1.1.1, term_tree hH hV hat a h.1.1.2,
      term_tree hH hV hat b h.1.2, term_tree hH hV hat c h.2, List.nil_append, List.cons_append]

/-- A state of the loop of `parse_expr`. -/
structure LoopSt (p : Nat) (a : Bool) (L : Node) (j : Nat) (s : St) : Prop where
  ps : s.ps = ⟨j, [], []⟩
  left : s.env v_left = .node L
  prec : s.env v_precedence = .nat p
  alias_ : s.env v_alias = .bool a
  table : s.env v_as_table = .bool false
  order : s.env v_order = .bool true

/-- The context of a call. -/
abbrev cx (U : Unicode) (T : List Token) (fuel N : Nat) : Ctx := ⟨U, T, fuel, callN U Program.defs T fuel N⟩

theorem reaches_sound {w : Window} {I : Itp} (hV : View w I) {fuel D N d : Nat} (hF : rounds ≤ fuel) (hG : GapOk w I fuel D)
    (hN : D + d ≤ N) {c : Cmd} {a0 : ASt} {s0 : St} (hR : RS I a0 s0) {i : Nat} {t : Term}
    (h : reaches i t (aexec w (acall w d) c a0) = true) :
    ∃ s1, exec (cx I.U I.T fuel N) c s0 = .ok (.norm, s1) ∧ LoopSt I.n I.a (t.ev I).1 (I.at_ i) s1 := by
  unfold reaches at h
  split at h
  · rename_i s hs
    simp only [Bool.and_eq_true, beq_iff_eq] at h
    obtain ⟨⟨⟨⟨⟨h1, h2⟩, h3⟩, h4⟩, h5⟩, h6⟩ := h
    obtain ⟨fl, s', k1, k2, k3⟩ := exec_sound (C := cx I.U I.T fuel N) hV rfl rfl (call_sound hV hF hG d N hN) hF c hR hs
    cases fl with
    | norm =>
      refine ⟨s', k1, ?_, ?_, ?_, ?_, ?_, ?_⟩
      · rw [k3.ps, h1]; rfl
      · split at h2
        · rename_i t' ht
          have := k3.env v_left
          rw [ht] at this
          rw [← eq_of_beq h2, Term.ev_norm]
          exact this
        · cases h2
      · have := k3.env v_precedence
        rw [h3] at this; exact this
      · have := k3.env v_alias
        rw [h4] at this; exact this
      · have := k3.env v_as_table
        rw [h5] at this; exact this
      · have := k3.env v_order
        rw [h6] at this; exact this
    | brk => exact k2.elim
    | ret v => exact k2.elim
  · cases h

theorem loopEnv_sound {I : Itp} {L : Node} {j : Nat} {s : St} (h : LoopSt I.n I.a L j s) (hL : I.H 0 = L) :
    REnv I loopEnv s.env := by
  intro x
  unfold loopEnv
  simp only [abind, AEnv.set]
  split
  · rename_i hx; subst hx; rw [h.left, ← hL]; rfl
  · split
    · rename_i hx; subst hx; exact h.prec
    · split
      · rename_i hx; subst hx; exact h.alias_
      · split
        · rename_i hx; subst hx; exact h.table
        · split
          · rename_i hx; subst hx; exact h.order
          · trivial

theorem pre_ok : ∀ s ∈ prefixes, checkPre s = true := by decide +kernel
theorem post_ok : ∀ s ∈ postfixes, s ≠ .field →
    checkPost (if s = .call ∨ s = .call0 then [.other .Identifier] else []) s (nextsOf s) none = true := by decide +kernel
theorem field_ok : checkPost [] .field (.lit "(".toList :: nameNexts) (some true) = true ∧
    checkPost [] .field nameNexts (some false) = true := by
  decide +kernel
theorem shapes_ok : ∀ s ∈ prefixes ++ postfixes, (itemsOk s.items && enoughToks s.items &&
    formOk s.items.length s.node && !s.items.isEmpty && (!s.items.contains .list2 || s == .tuple) && noEnd s.items) = true := by decide +kernel
theorem heads_ok : ∀ s ∈ postfixes, headOk s = true := by decide +kernel

theorem shape_facts {s : Shape} (h : s ∈ prefixes ++ postfixes) : itemsOk s.items = true ∧ enoughToks s.items = true ∧
    formOk s.items.length s.node = true ∧ s.items ≠ [] ∧ (s.items.contains .list2 = true → s = .tuple) ∧
    noEnd s.items = true := by
  have := shapes_ok s h
  simp only [Bool.and_eq_true, Bool.not_eq_true', List.isEmpty_eq_false_iff, Bool.or_eq_true, beq_iff_eq] at this
  obtain ⟨⟨⟨⟨⟨h1, h2⟩, h3⟩, h4⟩, h5⟩, h6⟩ := this
  refine ⟨h1, h2, h3, h4, fun h => ?_, h6⟩
  rcases h5 with h5 | h5
  · rw [h] at h5; cases h5
  · exact h5

theorem trees_two {U : Unicode} {T : List Token} {es : Exs} {q : Nat} (h : es.Ok U .list2) : (es.trees T q).length ≠ 1 := by
  cases es with
  | one e => exact h.elim
  | last e t => exact h.elim
  | more e t es => exact h.elim
  | cons e es =>
    simp only [Exs.trees, List.length_cons]
    cases es <;> simp [Exs.trees]

/-- Where there must be two elements, there are not only one. -/
theorem two_of {U : Unicode} {T : List Token} {s : Shape} {as : Args} {q : Nat} (hs : s ∈ prefixes ++ postfixes)
    (ha : as.Ok U (places s.items)) (h2 : s.items.contains .list2 = true) (i : Nat) :
    (holesOf (parts s.items (as.operands T) q) i).length ≠ 1 := by
  have := (shape_facts hs).2.2.2.2.1 h2
  subst this
  change as.Ok U [Place.list2] at ha
  cases as with
  | nil => exact ha.elim
  | cons es as =>
    have h1 : es.Ok U .list2 := ha.1
    match i with
    | 0 => simp [holesOf]
    | 1 => simp [holesOf, parts, Shape.tuple]
    | 2 =>
      have := trees_two (T := T) (q := q + 1) h1
      simpa [holesOf, parts, Shape.tuple, Args.operands] using this
    | 3 => simp [holesOf, parts, Shape.tuple, Args.operands]
    | i + 4 => simp [holesOf, parts, Shape.tuple, Args.operands]

/-- `parse_expr` comes to the end of the expression. -/
def Spine (U : Unicode) (T : List Token) (fuel : Nat) (e : Ex) : Prop :=
  ∀ (q p f N : Nat) (b : Base) (a : Bool), StandAt T q e.words → Follow U T (q + e.words.length) b f →
    (b ∈ nameNexts ∨ b ∈ tailNexts ∧ e.closed = true ∨ b = .lit "(".toList ∧ e.isPath = true) → e.Closes f → e.Ok U p → 1 ≤ p → p ≤ loosest →
    4 * e.words.length ≤ N + 1 → ∀ s0 : St, s0.ps = ⟨q, [], []⟩ →
    s0.env = bindParams Program.parse_expr.params [.nat p, .bool a, .bool false, .bool false, .bool true] →
    ∃ k s1 s2, k + 1 ≤ e.words.length ∧ exec (cx U T fuel N) exprPre s0 = .ok (.norm, s1) ∧
      (∀ n, iterate (exec (cx U T fuel N) exprLoop) (n + k) s1 = iterate (exec (cx U T fuel N) exprLoop) n s2) ∧
      LoopSt p a (e.tree T q) (q + e.words.length - 1) s2

section
variable {U : Unicode} (hU : U.Lawful) {T : List Token} (hnc : ∀ t ∈ T, t.isComment = false) (hA : Lex.Apart T) {fuel : Nat}
  (hF : T.length + 1 ≤ fuel)

theorem preEnv_sound {I : Itp} {s0 : St} (h : s0.env = bindParams Program.parse_expr.params
    [.nat I.n, .bool I.a, .bool false, .bool false, .bool true]) : REnv I preEnv s0.env := by
  rw [h]
  exact bind_sound _ ⟨rfl, rfl, rfl, rfl, rfl, trivial⟩

include hU in
theorem atom_check {l : Str} {ty : NodeType} (h : AtomIs U l ty) :
    checkAtom (atomBase l ty) ty (if ty = .Identifier then .lit "(".toList :: tailNexts else tailNexts) = true := by
  cases h
  · show checkAtom (.other .Identifier) .Identifier (.lit "(".toList :: tailNexts) = true
    decide +kernel
  · show checkAtom (.other .NumericLiteral) .NumericLiteral tailNexts = true
    decide +kernel
  · show checkAtom (.other .NumericLiteral) .NumericLiteral tailNexts = true
    decide +kernel
  · show checkAtom (.other .StringLiteral) .StringLiteral tailNexts = true
    decide +kernel
  · show checkAtom (.other .Parameter) .Parameter tailNexts = true
    decide +kernel
  · decide +kernel
  · decide +kernel
  · decide +kernel

include hU hnc hA hF in
theorem spine_atom (l : Str) (ty : NodeType) : Spine U T fuel (.atom l ty) := by
  intro q p f N b a hs hend hb hc hok hp1 hp2 hN s0 hps henv
  have hat : AtomIs U l ty := hok
  have hchk := atom_check hU hat
  have hm := hend.more
  have hw : (Ex.atom l ty).words.length = 1 := rfl
  rw [hw] at hm hN
  let nxt := if ty = .Identifier then .lit "(".toList :: tailNexts else tailNexts
  let I : Itp := ⟨U, T, [q, q + 1], fun _ => Node.empty .Unknown, fun _ => [], p, a, []⟩
  let w : Window := ⟨[⟨[atomBase l ty], none⟩, ⟨nxt, none⟩], none, false, 0, usizeMax⟩
  have hbn : b ∈ nxt := by
    show b ∈ if ty = .Identifier then .lit "(".toList :: tailNexts else tailNexts
    have ht : b ∈ tailNexts ∨ b = .lit "(".toList ∧ (Ex.atom l ty).isPath = true :=
      hb.elim (fun h => .inl (name_tail h)) (fun h => h.imp_left (·.1))
    rcases ht with hb | ⟨rfl, hi⟩
    · split
      · exact List.mem_cons_of_mem _ hb
      · exact hb
    · have : ty = .Identifier := by simpa [Ex.isPath] using hi
      rw [if_pos this]
      exact List.mem_cons_self
  obtain ⟨t, h1, h2⟩ := hs 0 l rfl
  obtain ⟨t', h3, h4⟩ := hend.base
  have hL : Lay U T I.H I.V fuel 0 w.cells I.pos := by
    refine ⟨⟨fun _ => ⟨t, h1, _, List.mem_singleton.2 rfl, atom_base hU hat h2⟩, by omega, ?_, fun g h => (by cases h)⟩,
      ⟨fun _ => ⟨t', h3, b, hbn, h4⟩, hm, fun _ q' h => (by cases h), fun g h => (by cases h)⟩, trivial⟩
    intro _ q' h
    cases h
    rfl
  have hV : View w I := view_of (I := I) hnc hA hL (fun b h => by cases h) (fun h => by cases h) (Nat.zero_le _) hp2 (by rfl)
  obtain ⟨s1, g1, g2⟩ := reaches_sound (N := N) hV (by have : rounds = 4 := rfl; omega)
    (gapOk_of hL) (d := 3) (by omega) (a0 := ⟨0, preEnv⟩) (s0 := s0) ⟨hps, preEnv_sound henv⟩ hchk
  refine ⟨0, s1, s1, by rw [hw]; omega, g1, fun n => rfl, ?_⟩
  have : (Ex.atom l ty).tree T q = ((Term.new 0 ty).ev I).1 := rfl
  rw [this, hw]
  exact g2

theorem mem_left {s : Shape} (h : s ∈ prefixes) : s ∈ prefixes ++ postfixes := List.mem_append_left _ h
theorem mem_right {s : Shape} (h : s ∈ postfixes) : s ∈ prefixes ++ postfixes := List.mem_append_right _ h

theorem getD_last {α : Type} {l r : List α} {x d : α} (h : l.getLast? = some x) : (l ++ r).getD (l.length - 1) d = x := by
  have hne : l ≠ [] := by rintro rfl; cases h
  have hl : 0 < l.length := List.length_pos_iff.2 hne
  rw [List.getD_eq_getElem?_getD, List.getElem?_append_left (by omega), ← List.getLast?_eq_getElem?, h]
  rfl

theorem nextsOf_mem {b : Base} {s : Shape} (h : b ∈ nameNexts ∨ b ∈ tailNexts ∧ s.closed = true) : b ∈ nextsOf s := by
  unfold nextsOf
  rcases h with h | ⟨h, hc⟩
  · split
    · exact name_tail h
    · exact h
  · rw [if_pos hc]; exact h

theorem open_name {b : Base} {s : Shape} (h : b ∈ nameNexts ∨ b ∈ tailNexts ∧ s.closed = true) {bd : Nat}
    (hb : openBound s.items = some bd) : b ∈ nameNexts := by
  rcases h with h | ⟨_, h⟩
  · exact h
  · simp [Shape.closed, hb] at h

theorem inl_le {is : List Item} {as : Args} (h : enoughToks is = true) (ha : as.Ok U (places is)) :
    inl is + 1 ≤ 4 * (weave is as.words).length := by
  have h1 := weave_length is ha
  unfold enoughToks at h
  simp only [Bool.and_eq_true, decide_eq_true_eq] at h
  unfold inl
  split <;> omega

include hU hnc hA hF in
theorem spine_pre (s : Shape) (as : Args) (hG : ArgsGood U T fuel as) : Spine U T fuel (.pre s as) := by
  intro q p f N b a hs hend hb hc hok hp1 hp2 hN s0 hps henv
  obtain ⟨hsh, ha⟩ : s ∈ prefixes ∧ as.Ok U (places s.items) := hok
  obtain ⟨k1, k2, k3, k4, k5, k6⟩ := shape_facts (mem_left hsh)
  have hb' : b ∈ nameNexts ∨ b ∈ tailNexts ∧ s.closed = true := by
    rcases hb with h | h | ⟨_, h⟩
    · exact .inl h
    · exact .inr h
    · cases h
  have hbn := nextsOf_mem hb'
  have hm := hend.more
  have hw : (Ex.pre s as).words = weave s.items as.words := rfl
  rw [hw] at hs hN hend hm
  let ps := parts s.items (as.operands T) q
  let I : Itp := ⟨U, T, posOf s.items (as.operands T) q ++ [q + (weave s.items as.words).length],
    holeOf (Node.empty .Unknown) ps, holesOf ps, p, a, []⟩
  let w := shapeWindow [] s (nextsOf s) none
  have hwp : 1 ≤ (weave s.items as.words).length := by
    have := words_pos (U := U) (.pre s as) (p := p) ⟨hsh, ha⟩
    exact this
  have hL : Lay U T I.H I.V fuel (4 * (weave s.items as.words).length - 1 - inl s.items) w.cells I.pos := by
    refine lay_items hU hbn hend s.items as 1 q ha hG k1 hs rfl ?_ (.inl k6) ?_ ?_ (deep_shape k2 ha (Nat.le_refl _))
    · intro bd hbd
      have : (match openBound s.items with
        | none => True
        | some b => b ≤ f ∧ as.LastCloses f) := hc
      rw [hbd] at this
      exact ⟨this.1, this.2, open_name hb' hbd⟩
    · intro j; rw [Nat.add_comm]; rfl
    · intro j; rw [Nat.add_comm]; rfl
  have hV : View w I := view_of (I := I) hnc hA hL (fun b h => by cases h) (fun h => two_of (mem_left hsh) ha h)
    (by
      have : ∀ s ∈ prefixes, s.level = 0 := by decide
      show s.level + 1 ≤ p
      rw [this s hsh]; exact hp1) hp2 (by rfl)
  have h0 : I.at_ 0 = q := by
    have := head_pos (T := T) (q := q) ha
    rw [List.head?_eq_getElem?] at this
    show (posOf s.items (as.operands T) q ++ [q + (weave s.items as.words).length]).getD 0 0 = q
    rw [List.getD_eq_getElem?_getD, this]
    rfl
  obtain ⟨s1, g1, g2⟩ := reaches_sound (N := N) hV (by have : rounds = 4 := rfl; omega)
    (gapOk_of hL) (d := inl s.items) (by have := inl_le k2 ha; omega) (a0 := ⟨0, preEnv⟩) (s0 := s0)
    ⟨by rw [hps]; unfold Itp.ps; rw [h0], preEnv_sound henv⟩ (pre_ok s hsh)
  refine ⟨0, s1, s1, by rw [hw]; omega, g1, fun n => rfl, ?_⟩
  have hlen : (posOf s.items (as.operands T) q).length + 1 = w.cells.length := by
    rw [← hL.length]
    simp [I]
  have hlast : I.at_ (w.cells.length - 2) = q + (Ex.pre s as).words.length - 1 := by
    rw [← hlen, show (posOf s.items (as.operands T) q).length + 1 - 2 = (posOf s.items (as.operands T) q).length - 1 by omega]
    exact getD_last (pos_last ha k4)
  have htree : (Ex.pre s as).tree T q = ((termOf s.items 0 s.node).ev I).1 := by
    refine (term_tree (I := I) (left := Node.empty .Unknown) (ps := ps) rfl rfl ?_ s.node k3).symm
    intro j hj
    rw [Nat.zero_add]
    exact pos_item (T := T) (q := q) ha hj
  rw [htree, ← hlast]
  exact g2

/-- The parts of a field access. -/
theorem field_args {as : Args} (ha : as.Ok U (places Shape.field.items)) :
    ∃ l, as = .cons (.one (.atom l .Identifier)) .nil ∧ AtomIs U l .Identifier := by
  change as.Ok U [Place.name] at ha
  cases as with
  | nil => exact ha.elim
  | cons es as =>
    cases as with
    | cons _ _ => exact ha.2.elim
    | nil =>
      cases es with
      | cons _ _ => exact ha.1.elim
      | last _ _ => exact ha.1.elim
      | more _ _ _ => exact ha.1.elim
      | one e =>
        obtain ⟨l, rfl, hl⟩ := ha.1
        exact ⟨l, rfl, hl⟩

theorem path_field {x : Ex} {s : Shape} {as : Args} (h : (Ex.post x s as).isPath = true) : s = .field ∧ x.isPath = true := by
  simpa [Ex.isPath] using h

include hU in
/-- The last token of a path is a name. -/
theorem path_last : ∀ (x : Ex) {p q : Nat}, x.isPath = true → x.Ok U p → StandAt T q x.words →
    CellOk U T ⟨[.other .Identifier], none⟩ (q + x.words.length - 1)
  | .atom l ty, p, q, hi, hok, hs => by
    intro _
    obtain ⟨t, h1, h2⟩ := hs 0 l rfl
    have : ty = .Identifier := by simpa [Ex.isPath] using hi
    subst this
    exact ⟨t, h1, _, List.mem_singleton.2 rfl, atom_base hU (T := T) (q := q) hok h2⟩
  | .pre _ _, _, _, hi, _, _ => by cases hi
  | .post x s as, p, q, hi, hok, hs => by
    intro _
    obtain ⟨rfl, _⟩ := path_field hi
    obtain ⟨l, rfl, hl⟩ := field_args hok.2.2.2.2.2
    have hs' : StandAt T (q + x.words.length) [".".toList, l] := StandAt.right (a := x.words) hs
    obtain ⟨t, h1, h2⟩ := hs' 1 l rfl
    refine ⟨t, ?_, _, List.mem_singleton.2 rfl, atom_base hU hl h2⟩
    rw [← h1]
    congr 1
    simp only [Ex.words, List.length_append]
    show q + (x.words.length + 2) - 1 = q + x.words.length + 1
    omega

/-- The leftmost part of a path is a name. -/
theorem path_leftmost : ∀ (x : Ex) {p q : Nat}, x.isPath = true → x.Ok U p → (x.tree T q).leftmostType = .Identifier
  | .atom l ty, p, q, hi, hok => by
    have : ty = .Identifier := by simpa [Ex.isPath] using hi
    subst this
    rfl
  | .pre _ _, _, _, hi, _ => by cases hi
  | .post x s as, p, q, hi, hok => by
    obtain ⟨rfl, hx⟩ := path_field hi
    obtain ⟨l, rfl, hl⟩ := field_args hok.2.2.2.2.2
    have := path_leftmost x (q := q) hx hok.2.2.1
    have e : (Ex.tree T (.post x .field (.cons (.one (.atom l .Identifier)) .nil)) q).leftmostType =
      (x.tree T q).leftmostType := rfl
    rw [e, this]

include hU in
/-- How the window of a shape that continues an expression is chosen. -/
theorem post_choice {x : Ex} {s : Shape} {as : Args} {p q f : Nat} {b : Base} (hok : (Ex.post x s as).Ok U p)
    (hs : StandAt T q x.words)
    (hb : b ∈ nameNexts ∨ b ∈ tailNexts ∧ s.closed = true ∨ b = .lit "(".toList ∧ (Ex.post x s as).isPath = true) :
    ∃ bl nxt lid, checkPost bl s nxt lid = true ∧ CellOk U T ⟨bl, none⟩ (q + x.words.length - 1) ∧ b ∈ nxt ∧
      (∀ c, lid = some c → ((x.tree T q).leftmostType == .Identifier) = c) ∧
      (∀ bd, openBound s.items = some bd → b ∈ nameNexts) := by
  by_cases hf : s = .field
  · subst hf
    have hcl : Shape.field.closed = false := by decide
    have hb : b ∈ nameNexts ∨ b = .lit "(".toList ∧ (Ex.post x .field as).isPath = true := by
      rcases hb with hb | ⟨_, hb⟩ | hb
      · exact .inl hb
      · rw [hcl] at hb; cases hb
      · exact .inr hb
    cases hl : (x.tree T q).leftmostType == .Identifier with
    | true =>
      refine ⟨[], _, some true, field_ok.1, fun h => absurd rfl h, ?_, ?_, fun bd h => by cases h⟩
      · rcases hb with hb | ⟨rfl, _⟩
        · exact List.mem_cons_of_mem _ hb
        · exact List.mem_cons_self
      · intro c hc; cases hc; rfl
    | false =>
      refine ⟨[], nameNexts, some false, field_ok.2, fun h => absurd rfl h, ?_, ?_, fun bd h => by cases h⟩
      · rcases hb with hb | ⟨rfl, hi⟩
        · exact hb
        · have := path_leftmost (T := T) x (q := q) (path_field hi).2 hok.2.2.1
          rw [this] at hl
          cases hl
      · intro c hc; cases hc; rfl
  · have hbn : b ∈ nameNexts ∨ b ∈ tailNexts ∧ s.closed = true := by
      rcases hb with hb | hb | ⟨_, hi⟩
      · exact .inl hb
      · exact .inr hb
      · exact absurd (path_field hi).1 hf
    refine ⟨_, nextsOf s, none, post_ok s hok.1 hf, ?_, nextsOf_mem hbn, fun c h => (by cases h), fun _ h => open_name hbn h⟩
    split
    · rename_i hc
      exact path_last hU x (hok.2.2.2.2.1 hc) hok.2.2.1 hs
    · exact fun h => absurd rfl h

include hU in
/-- A word of a shape. -/
theorem tok_base {l : Str} {is : List Item} {ws : List (List Str)} {q : Nat} (hv : l ∈ vocab)
    (hs : StandAt T q (weave (.tok l :: is) ws)) : ∃ t, T[q]? = some t ∧ IsBase U T q t (baseOf l is) := by
  obtain ⟨t, h1, h2⟩ := hs 0 l rfl
  have hl := litOk_of hU h2 hv
  refine ⟨t, h1, ?_⟩
  unfold baseOf
  split
  · rename_i l' is'
    split
    · rename_i hn
      obtain ⟨rfl, hn⟩ := hn
      obtain ⟨t', k1, k2⟩ := hs 1 l' rfl
      have hn' : l' ∈ ["IN".toList, "LIKE".toList, "BETWEEN".toList] := by simpa using hn
      have hv : ∀ l ∈ ["IN".toList, "LIKE".toList, "BETWEEN".toList], l ∈ vocab := by decide
      exact ⟨hl, t', l', k1, litOk_of hU k2 (hv _ hn'), hn'⟩
    · exact hl
  · exact hl

theorem iterate_norm {f : St → Out (Flow × St)} {s s' : St} (h : f s = .ok (.norm, s')) (n : Nat) :
    iterate f (n + 1) s = iterate f n s' := by
  simp only [iterate, h]

include hU hnc hA hF in
theorem spine_post (x : Ex) (s : Shape) (as : Args) (hx : Spine U T fuel x) (hG : ArgsGood U T fuel as) :
    Spine U T fuel (.post x s as) := by
  intro q p f N b a hs hend hb hc hok hp1 hp2 hN s0 hps henv
  obtain ⟨hsh, hlev, hxok, hxc, hpath, ha⟩ := hok
  obtain ⟨k1, k2, k3, k4, k5, k6⟩ := shape_facts (mem_right hsh)
  have hm := hend.more
  have hw : (Ex.post x s as).words = x.words ++ weave s.items as.words := rfl
  have hwl : (Ex.post x s as).words.length = x.words.length + (weave s.items as.words).length := by
    rw [hw, List.length_append]
  have hxp := words_pos x hxok
  rw [hwl] at hN hm
  rw [hw] at hs
  have hs1 := StandAt.left hs
  have hs2 := StandAt.right hs
  -- the expression on the left
  have hhead := heads_ok s hsh
  unfold headOk at hhead
  split at hhead
  case h_2 => cases hhead
  rename_i l is his
  simp only [Bool.and_eq_true, beq_iff_eq, decide_eq_true_eq] at hhead
  have hwp : 1 ≤ (weave s.items as.words).length := by rw [his]; simp [weave]
  have hfx : Follow U T (q + x.words.length) (baseOf l is) s.level := by
    refine ⟨tok_base hU (ws := as.words) ?_ (by rw [← his]; exact hs2), by omega, hhead.1.1⟩
    rw [his] at k1
    simp only [itemsOk, Bool.and_eq_true, List.contains_iff_mem] at k1
    exact k1.1
  obtain ⟨k, s1, s2, g1, g2, g3, g4⟩ := hx q p s.level N (baseOf l is) a hs1 hfx (by
    by_cases hcall : s = .call ∨ s = .call0
    · have := hhead.2
      rw [if_pos hcall] at this
      exact .inr (.inr ⟨by simpa using this, hpath hcall⟩)
    · have := hhead.2
      rw [if_neg hcall] at this
      exact .inl (nexts_name (by simpa using this))) hxc hxok hp1 hp2 (by omega) s0 hps henv
  -- the shape
  obtain ⟨bl, nxt, lid, c1, c2, c3, c4, c5⟩ := post_choice hU (T := T) (q := q) (f := f) ⟨hsh, hlev, hxok, hxc, hpath, ha⟩ hs1 hb
  have hend' : Follow U T (q + x.words.length + (weave s.items as.words).length) b f := by
    rw [hwl, ← Nat.add_assoc] at hend
    exact hend
  let ps := parts s.items (as.operands T) (q + x.words.length)
  let I : Itp := ⟨U, T, (q + x.words.length - 1) :: (posOf s.items (as.operands T) (q + x.words.length) ++
    [q + x.words.length + (weave s.items as.words).length]), holeOf (x.tree T q) ps, holesOf ps, p, a, []⟩
  let w := shapeWindow [⟨bl, none⟩] s nxt lid
  have hL : Lay U T I.H I.V fuel (4 * (Ex.post x s as).words.length - 1 - inl s.items) w.cells I.pos := by
    refine ⟨⟨c2, by omega, ?_, fun g h => (by cases h)⟩, ?_⟩
    · intro _ q' hq
      have := head_pos (T := T) (q := q + x.words.length) ha
      have := hq.symm.trans this
      cases this
      omega
    · refine lay_items hU c3 hend' s.items as 1 (q + x.words.length) ha hG k1 hs2 rfl ?_ (.inl k6) ?_ ?_
        (deep_shape k2 ha (by omega))
      · intro bd hbd
        have : (match openBound s.items with
          | none => True
          | some b => b ≤ f ∧ as.LastCloses f) := hc
        rw [hbd] at this
        exact ⟨this.1, this.2, c5 bd hbd⟩
      · intro j; rw [Nat.add_comm]; rfl
      · intro j; rw [Nat.add_comm]; rfl
  have hV : View w I := view_of (I := I) hnc hA hL c4 (fun h => two_of (mem_right hsh) ha h) hlev hp2 (by rfl)
  obtain ⟨s3, e1, e2⟩ := reaches_sound (N := N) hV (by have : rounds = 4 := rfl; omega)
    (gapOk_of hL) (d := inl s.items) (by have := inl_le k2 ha; omega) (a0 := ⟨0, loopEnv⟩) (s0 := s2)
    ⟨g4.ps, loopEnv_sound (I := I) g4 rfl⟩ c1
  refine ⟨k + 1, s1, s3, by rw [hwl]; omega, g2, ?_, ?_⟩
  · intro n
    rw [show n + (k + 1) = n + 1 + k by omega, g3]
    exact iterate_norm e1 n
  have hlen : (posOf s.items (as.operands T) (q + x.words.length)).length + 2 = w.cells.length := by
    rw [← hL.length]
    simp [I]
  have hlast : I.at_ (w.cells.length - 2) = q + (Ex.post x s as).words.length - 1 := by
    rw [← hlen, Nat.add_sub_cancel]
    have h1 := pos_last (T := T) (q := q + x.words.length) ha k4
    have h2 : 1 ≤ (posOf s.items (as.operands T) (q + x.words.length)).length := by
      rcases hp : posOf s.items (as.operands T) (q + x.words.length) with _ | ⟨y, ys⟩
      · rw [hp] at h1; cases h1
      · simp
    obtain ⟨m, hm'⟩ : ∃ m, (posOf s.items (as.operands T) (q + x.words.length)).length = m + 1 := ⟨_, (Nat.sub_add_cancel h2).symm⟩
    have h3 := getD_last (r := [q + x.words.length + (weave s.items as.words).length]) (d := 0) h1
    rw [hm', Nat.add_sub_cancel] at h3
    rw [hm']
    show (posOf s.items (as.operands T) (q + x.words.length) ++ _).getD m 0 = _
    rw [h3, hwl]
    omega
  have htree : (Ex.post x s as).tree T q = ((termOf s.items 1 s.node).ev I).1 := by
    refine (term_tree (I := I) (left := x.tree T q) (ps := ps) rfl rfl ?_ s.node k3).symm
    intro j hj
    rw [Nat.add_comm]
    exact pos_item (T := T) (q := q + x.words.length) ha hj
  rw [htree, ← hlast]
  exact e2

theorem open_le : ∀ (is : List Item), itemsOk is = true → ∀ b, openBound is = some b → b ≤ loosest
  | [], _, _, h => by cases h
  | .tok _ :: is, hI, b, h => by
    simp only [itemsOk, Bool.and_eq_true] at hI
    exact open_le is hI.2 b (by cases is <;> exact h)
  | .name :: is, hI, b, h => open_le is hI b (by cases is <;> exact h)
  | .list _ :: is, hI, b, h => by
    simp only [itemsOk, Bool.and_eq_true] at hI
    exact open_le is hI.2 b (by cases is <;> exact h)
  | .list2 :: is, hI, b, h => by
    simp only [itemsOk, Bool.and_eq_true] at hI
    exact open_le is hI.2 b (by cases is <;> exact h)
  | .sub c :: is, hI, b, h => by
    simp only [itemsOk, Bool.and_eq_true, decide_eq_true_eq] at hI
    cases is with
    | nil => cases h; exact hI.1.1.2
    | cons i is => exact open_le (i :: is) hI.2 b h
  | .plain c :: is, hI, b, h => by
    simp only [itemsOk, Bool.and_eq_true, decide_eq_true_eq] at hI
    cases is with
    | nil => cases h; exact hI.1.1.2
    | cons i is => exact open_le (i :: is) hI.2 b h

theorem exit_ok : (∀ b ∈ nexts, ∀ a : Bool, checkExit b a = true) ∧ ∀ b ∈ nameNexts, checkExit b false = true := by decide +kernel

theorem expr_body : Program.parse_expr.body = .seq (seqL Program.parse_expr.body)
    (.seq (seqL (seqR Program.parse_expr.body)) (.seq (.loop exprLoop) exprPost)) := rfl

theorem exec_assoc {C : Ctx} {a b c : Cmd} {s s' : St} (h : exec C (.seq a b) s = .ok (.norm, s')) :
    exec C (.seq a (.seq b c)) s = exec C c s' := by
  simp only [exec] at h ⊢
  split at h
  · rename_i s1 h1
    rw [h]
  · rename_i h1 h2
    exact absurd h (h2 s')

include hF in
/-- The end of the loop and what follows it. -/
theorem finish {w : Window} {I : Itp} (hT : I.T = T) (hV : View w I) {N d D k : Nat} (hG : GapOk w I fuel D) (hN : D + d ≤ N)
    (hk : k + 2 < T.length) {s1 s2 : St}
    (g3 : ∀ n, iterate (exec (cx I.U I.T fuel N) exprLoop) (n + k) s1 = iterate (exec (cx I.U I.T fuel N) exprLoop) n s2)
    {a0 as : ASt} {v : AVal} (hR : RS I a0 s2)
    (hae : aexec w (acall w d) (.seq (.loop exprLoop) exprPost) a0 = some (.ret v, as)) :
    ∃ v' s', exec (cx I.U I.T fuel N) (.seq (.loop exprLoop) exprPost) s1 = .ok (.ret v', s') ∧ RV I v v' ∧ RS I as s' := by
  have hr : rounds = 4 := rfl
  have hF' : rounds ≤ fuel := by omega
  have hcall := call_sound hV (fuel := fuel) (D := D) hF' hG d N hN
  have hit : iterate (exec (cx I.U I.T fuel N) exprLoop) fuel s1 = iterate (exec (cx I.U I.T fuel N) exprLoop) (fuel - k) s2 := by
    have := g3 (fuel - k)
    rw [Nat.sub_add_cancel (by omega)] at this
    exact this
  simp only [exec]
  rw [hit]
  simp only [aexec] at hae
  cases hi : aiterate (aexec w (acall w d) exprLoop) rounds a0 with
  | none => rw [show aiterate _ _ _ = none from hi] at hae; cases hae
  | some r =>
    rw [show aiterate _ _ _ = some r from hi] at hae
    obtain ⟨fl, s', j1, j2, j3⟩ := iterate_sound (I := I) (fun a s r h hr =>
      exec_sound (C := cx I.U I.T fuel N) hV rfl rfl hcall hF' exprLoop h hr) rounds (fuel - k) (by omega) _ s2 r hR hi
    rw [j1]
    simp only [Option.bind] at hae
    obtain ⟨afl, ast⟩ := r
    cases afl with
    | brk => cases hae
    | ret v =>
      cases hae
      cases fl with
      | ret v' => exact ⟨v', s', rfl, j2, j3⟩
      | norm => exact j2.elim
      | brk => exact j2.elim
    | norm =>
      cases fl with
      | ret v' => exact j2.elim
      | brk => exact j2.elim
      | norm =>
        obtain ⟨fl, s'', m1, m2, m3⟩ := exec_sound (C := cx I.U I.T fuel N) hV rfl rfl hcall hF' exprPost j3 hae
        cases fl with
        | norm => exact m2.elim
        | brk => exact m2.elim
        | ret v' => exact ⟨v', s'', m1, m2, m3⟩

theorem call_fin {N q p j : Nat} {a : Bool} {n : Node} {s1 s' : St}
    (g2 : exec (cx U T fuel N) exprPre ⟨⟨q, [], []⟩, bindParams Program.parse_expr.params
      [.nat p, .bool a, .bool false, .bool false, .bool true]⟩ = .ok (.norm, s1))
    (z1 : exec (cx U T fuel N) (.seq (.loop exprLoop) exprPost) s1 = .ok (.ret (.node n), s')) (z2 : s'.ps = ⟨j, [], []⟩) :
    callN U Program.defs T fuel (N + 1) .parse_expr [.nat p, .bool a, .bool false, .bool false, .bool true] ⟨q, [], []⟩ =
      .ok (.node n, ⟨j, [], []⟩) := by
  have hbody : exec (cx U T fuel N) Program.parse_expr.body
      ⟨⟨q, [], []⟩, bindParams Program.parse_expr.params [.nat p, .bool a, .bool false, .bool false, .bool true]⟩ =
      exec (cx U T fuel N) (.seq (.loop exprLoop) exprPost) s1 := by
    rw [expr_body]
    exact exec_assoc g2
  rw [z1] at hbody
  show runBody _ Program.parse_expr _ _ = _
  unfold runBody
  rw [hbody]
  simp only [z2]

theorem loopAlias_sound {I : Itp} {L : Node} {j : Nat} {s : St} (h : LoopSt I.n I.a L j s) (hL : I.H 0 = L) (hj : I.at_ 0 = j) :
    RS I ⟨0, loopEnv.set v_alias (.bool I.a)⟩ s := by
  refine ⟨by rw [h.ps, ← hj]; rfl, ?_⟩
  intro x
  show RV I (if x = v_alias then .bool I.a else loopEnv x) (s.env x)
  split
  · rename_i hx
    subst hx
    exact h.alias_
  · exact loopEnv_sound (I := I) h hL x

include hU hnc hA hF in
/-- The call for an expression. -/
theorem call_of_spine {e : Ex} (h : Spine U T fuel e) : ExCall U T fuel e := by
  intro q p f b hs hend hb hc hok hp1 hp2 hpf N hN a hfl
  have hwp := words_pos e hok
  have hm := hend.more
  obtain ⟨N, rfl⟩ : ∃ M, N = M + 1 := ⟨N - 1, by omega⟩
  obtain ⟨k, s1, s2, g1, g2, g3, g4⟩ := h q p f N b a hs hend (.inl hb) hc hok hp1 hp2 hN
    ⟨⟨q, [], []⟩, bindParams Program.parse_expr.params [.nat p, .bool a, .bool false, .bool false, .bool true]⟩ rfl rfl
  have hchk : checkExit b a = true := by
    rcases hfl with hfl | rfl
    · exact exit_ok.1 b hfl a
    · exact exit_ok.2 b hb
  unfold checkExit at hchk
  rw [hend.prec] at hchk
  simp only at hchk
  split at hchk
  case h_2 => cases hchk
  rename_i as hae
  let w : Window := ⟨[⟨[], none⟩, ⟨[b], none⟩], none, false, 0, f⟩
  let I : Itp := ⟨U, T, [q + e.words.length - 1, q + e.words.length], fun _ => e.tree T q, fun _ => [], p, a, []⟩
  obtain ⟨t', h3, h4⟩ := hend.base
  have hL : Lay U T I.H I.V fuel 0 w.cells I.pos := by
    refine ⟨⟨fun h => absurd rfl h, by omega, ?_, fun g h => (by cases h)⟩,
      ⟨fun _ => ⟨t', h3, b, List.mem_singleton.2 rfl, h4⟩, hm, fun _ q' h => (by cases h), fun g h => (by cases h)⟩, trivial⟩
    intro _ q' h
    cases h
    omega
  have hV : View w I := view_of (I := I) hnc hA hL (fun b h => by cases h) (fun h => by cases h) (Nat.zero_le _) hpf (by rfl)
  obtain ⟨v', s', z1, z2, z3⟩ := finish hF (T := T) (I := I) rfl hV (gapOk_of hL) (d := 0) (N := N) (by omega) (by omega) g3
    (loopAlias_sound (I := I) g4 rfl rfl) hae
  have hp := eq_of_beq hchk
  refine call_fin g2 (s' := s') ?_ ?_
  · rw [show v' = _ from z2] at z1
    exact z1
  · rw [z3.ps, show as.pos = 0 from hp]; rfl

/-- The words of an element of a list, and its tree. -/
structure Elem (U : Unicode) (T : List Token) (fuel : Nat) (al : Option Bool) (ws : List Str) (tr : Nat → Node) : Prop where
  pos : 1 ≤ ws.length
  first : ∀ q, StandAt T q ws → ∃ t, T[q]? = some t ∧ ∃ b ∈ firsts, IsBase U T q t b
  call : ∀ (q : Nat) (b : Base), StandAt T q ws → Follow U T (q + ws.length) b loosest → b ∈ ends → ∀ N, 4 * ws.length ≤ N →
    ∀ a : Bool, (∀ c, al = some c → a = c) →
    callN U Program.defs T fuel N .parse_expr [.nat loosest, .bool a, .bool false, .bool false, .bool true] ⟨q, [], []⟩ =
      .ok (.node (tr q), ⟨q + ws.length - 1, [], []⟩)

theorem ends_next : ∀ b ∈ ends, b ∈ nexts := by decide +kernel

theorem tails_ok : (∀ l, checkTail (.named l) true = true) ∧ (∀ l, checkTail (.short l) true = true) ∧
    ∀ a, checkTail (.sorted "ASC".toList) a = true ∧ checkTail (.sorted "DESC".toList) a = true := by
  refine ⟨fun l => ?_, fun l => ?_, ?_⟩
  · show checkTail (.named []) true = true
    decide +kernel
  · show checkTail (.short []) true = true
    decide +kernel
  · decide +kernel

theorem tail_prec : (Base.lit "AS".toList).prec = some loosest ∧ (Base.other .Identifier).prec = some loosest ∧
    (Base.lit "ASC".toList).prec = some loosest ∧ (Base.lit "DESC".toList).prec = some loosest := by decide +kernel

theorem seq_norm {C : Ctx} {a b : Cmd} {s s' : St} (h : exec C (.seq a b) s = .ok (.norm, s')) :
    ∃ s1, exec C a s = .ok (.norm, s1) ∧ exec C b s1 = .ok (.norm, s') := by
  simp only [exec] at h
  split at h
  · rename_i s1 h1
    exact ⟨s1, h1, h⟩
  · rename_i h1 h2
    exact absurd h (h2 s')

theorem seq_of {C : Ctx} {a b : Cmd} {s s1 : St} (h : exec C a s = .ok (.norm, s1)) :
    exec C (.seq a b) s = exec C b s1 := by
  simp only [exec, h]

theorem exprs_body : Program.parse_exprs.body = .seq (seqL Program.parse_exprs.body)
    (.seq (seqL (seqR Program.parse_exprs.body)) (.seq (seqL (seqR (seqR Program.parse_exprs.body)))
    (.seq (seqL (seqR (seqR (seqR Program.parse_exprs.body)))) (.seq (.loop listLoop) (.ret (.var v_exprs)))))) := rfl

theorem exec_listPre {C : Ctx} {s s' : St} (h : exec C listPre s = .ok (.norm, s')) :
    exec C Program.parse_exprs.body s = exec C (.seq (.loop listLoop) (.ret (.var v_exprs))) s' := by
  rw [exprs_body]
  obtain ⟨s1, h1, h⟩ := seq_norm h
  obtain ⟨s2, h2, h⟩ := seq_norm h
  obtain ⟨s3, h3, h⟩ := seq_norm h
  rw [seq_of h1, seq_of h2, seq_of h3, seq_of h]

mutual
theorem closes_loosest : ∀ (e : Ex) {p : Nat}, e.Ok U p → e.Closes loosest
  | .atom l ty, p, h => trivial
  | .pre s as, p, h => by
    unfold Ex.Closes
    have := open_le s.items (shape_facts (mem_left h.1)).1
    split
    · trivial
    · rename_i b hb
      exact ⟨this b hb, lastCloses_loosest as h.2⟩
  | .post x s as, p, h => by
    unfold Ex.Closes
    have := open_le s.items (shape_facts (mem_right h.1)).1
    split
    · trivial
    · rename_i b hb
      exact ⟨this b hb, lastCloses_loosest as h.2.2.2.2.2⟩
theorem exsCloses_loosest : ∀ (es : Exs) {s : Place}, es.Ok U s → es.LastCloses loosest
  | .one e, s, h => by
    cases s with
    | name => obtain ⟨l, rfl, _⟩ := h; trivial
    | sub b pl n => exact closes_loosest e h.1
    | list k => exact closes_loosest e h
    | list2 => exact h.elim
  | .cons e es, s, h => by
    cases s with
    | name => exact h.elim
    | sub b pl n => exact h.elim
    | list k => exact exsCloses_loosest es h.2
    | list2 => exact exsCloses_loosest es h.2
  | .last e t, s, h => trivial
  | .more e t es, s, h => by
    cases s with
    | name => exact h.elim
    | sub b pl n => exact h.elim
    | list k => exact exsCloses_loosest es h.2.2.2
    | list2 => exact h.elim
theorem lastCloses_loosest : ∀ (as : Args) {ss : List Place}, as.Ok U ss → as.LastCloses loosest
  | .nil, ss, h => trivial
  | .cons es .nil, [], h => h.elim
  | .cons es (.cons _ _), [], h => h.elim
  | .cons es .nil, s :: ss, h => exsCloses_loosest es h.1
  | .cons es (.cons es' as), s :: ss, h => lastCloses_loosest (.cons es' as) h.2
end

/-- The variables of the loop of `parse_exprs`. -/
structure ListSt (ks : List Kw) (a : Bool) (ns : List Node) (j : Nat) (s : St) : Prop where
  ps : s.ps = ⟨j, [], []⟩
  exprs : s.env v_exprs = .vec ns
  until_ : s.env v_until = .kws ks
  alias_ : s.env v_alias = .bool a

/-- The elements after a comma. -/
def ExsTail (U : Unicode) (T : List Token) (fuel : Nat) (es : Exs) : Prop :=
  ∀ (K : ListKind) (q N k : Nat) (b : Base) (acc : List Node) (ks : List Kw) (a : Bool) (s : St), CellOk U T comma q →
    StandAt T (q + 1) es.words → Follow U T (q + 1 + es.words.length) b loosest → b ∈ closers → es.Ok U (.list K) →
    (K = .named → a = true) → firsts.all (fun b => !b.inKws ks) = true → 4 * es.words.length ≤ N → es.words.length ≤ k → ListSt ks a acc q s →
    ∃ s', iterate (exec (cx U T fuel N) listLoop) k s = .ok (.norm, s') ∧
      ListSt ks a (acc ++ es.trees T (q + 1)) (q + es.words.length) s'

theorem closers_end {b : Base} (h : b ∈ closers) : b ∈ ends := List.mem_cons_of_mem _ h

/-- The flag is one of those that are possible. -/
theorem flag_of {K : ListKind} {a : Bool} (h : K = .named → a = true) : ∀ c, flagFor K = some c → a = c := by
  intro c hc
  cases K <;> cases hc
  exact h rfl

theorem flag_sound {I : Itp} {al : Option Bool} (h : ∀ c, al = some c → I.a = c) : RV I (flagOf al) (.bool I.a) := by
  cases al with
  | none => rfl
  | some c => rw [h c rfl]; rfl

theorem comma_prec : (Base.lit ",".toList).prec = some loosest := by decide +kernel

theorem listEnv_sound {I : Itp} {al : Option Bool} {acc : List Node} {j : Nat} {s : St} (h : ListSt I.ks I.a acc j s)
    (hL : I.V 0 = acc) (ha : ∀ c, al = some c → I.a = c) : REnv I (listEnv al) s.env := by
  intro x
  unfold listEnv
  simp only [abind, AEnv.set]
  split
  · rename_i hx; subst hx; exact h.until_
  · split
    · rename_i hx; subst hx; rw [h.alias_]; exact flag_sound ha
    · split
      · rename_i hx; subst hx; rw [h.exprs, ← hL]; rfl
      · trivial

/-- What is known of the state is known of the variables. -/
theorem listAt_sound {I : Itp} {al : Option Bool} (ha : ∀ c, al = some c → I.a = c) {i : Nat} {v : Term} {as : ASt} {s : St}
    (h : listAt al i v as = true) (hR : RS I as s) :
    ListSt I.ks I.a (v.ev I).2 (I.at_ i) s := by
  unfold listAt at h
  simp only [Bool.and_eq_true, beq_iff_eq] at h
  obtain ⟨⟨⟨h1, h2⟩, h3⟩, h4⟩ := h
  refine ⟨by rw [hR.ps, h1]; rfl, ?_, ?_, ?_⟩
  · have := hR.env v_exprs
    rw [h2] at this; exact this
  · have := hR.env v_until
    rw [h3] at this; exact this
  · have := hR.env v_alias
    rw [h4] at this
    cases al with
    | none => exact this
    | some c => rw [ha c rfl]; exact this

section
variable {H : Nat → Node} {V : Nat → List Node}

/-- An element of a list. -/
theorem lay_element {al : Option Bool} {ws : List Str} {tr : Nat → Node} (he : Elem U T fuel al ws tr) {q : Nat} {b : Base}
    {cells : List Cell} {rest : List Nat} (hs : StandAt T q ws) (hend : Follow U T (q + ws.length) b loosest) (hb : b ∈ ends)
    (hH : H 1 = tr q) (hh : rest.head? = some (q + ws.length)) {D : Nat} (hD : 4 * ws.length ≤ D)
    (hL : Lay U T H V fuel D cells rest) :
    Lay U T H V fuel D (element al ++ cells) (q :: (q + ws.length - 1) :: rest) := by
  have hm := hend.more
  refine lay_gap (fun _ => he.first q hs) he.pos (by omega) ?_ hh hL
  intro N hN a ha
  rw [hH]
  exact he.call q b hs hend hb N (Nat.le_trans hD hN) a ha

theorem lay_cell {c : Cell} {q q' : Nat} {cells : List Cell} {rest : List Nat} {D : Nat} (hc : CellOk U T c q) (hg : c.gap = none)
    (hm : q + 1 < T.length) (hh : rest.head? = some q') (hq : q' = q + 1) (hL : Lay U T H V fuel D cells rest) :
    Lay U T H V fuel D (c :: cells) (q :: rest) := by
  refine ⟨⟨hc, hm, ?_, fun g h => (by rw [hg] at h; cases h)⟩, hL⟩
  intro _ q'' h
  rw [hh] at h
  cases h
  exact hq

theorem lay_last {c : Cell} {q : Nat} {D : Nat} (hc : CellOk U T c q) (hg : c.gap = none)
    (hm : q + 1 < T.length) : Lay U T H V fuel D [c] [q] :=
  ⟨⟨hc, hm, fun _ q' h => (by cases h), fun g h => (by rw [hg] at h; cases h)⟩, trivial⟩
end

include hU in
theorem comma_follow {ws : List Str} {es : Exs} {q : Nat} (hs : StandAt T q (ws ++ ",".toList :: es.words))
    (hm : q + ws.length + 1 < T.length) :
    Follow U T (q + ws.length) (.lit ",".toList) loosest ∧ CellOk U T comma (q + ws.length) ∧
      StandAt T (q + ws.length + 1) es.words := by
  have hs' : StandAt T (q + ws.length) (",".toList :: es.words) := StandAt.right hs
  obtain ⟨t, h1, h2⟩ := hs' 0 _ rfl
  have hl := litOk_of hU h2 (by decide)
  exact ⟨⟨⟨t, h1, hl⟩, hm, comma_prec⟩, fun _ => ⟨t, h1, _, List.mem_singleton.2 rfl, hl⟩,
    StandAt.right (a := [",".toList]) hs'⟩

theorem checks_ok : ∀ K : ListKind, checkOne (flagFor K) = true ∧ checkFirst (flagFor K) = true ∧ checkLast (flagFor K) = true ∧
    checkMore (flagFor K) = true := by
  intro K
  cases K <;> decide +kernel

include hU hnc hA hF in
theorem tail_one (es : Exs) {ws : List Str} {tr : Nat → Node} (hw : es.words = ws) (ht : ∀ q, es.trees T q = [tr q])
    (hE : ∀ K, es.Ok U (.list K) → Elem U T fuel (flagFor K) ws tr) : ExsTail U T fuel es := by
  intro K q N k b acc ks a s hcomma hs hend hb hok hfl hks hN hk hst
  have hfl' := hfl
  have hfl := flag_of hfl
  have he := hE K hok
  rw [hw] at hs hend hN hk ⊢
  have hm := hend.more
  have hp := he.pos
  let I : Itp := ⟨U, T, [q, q + 1, q + 1 + ws.length - 1, q + 1 + ws.length],
    fun _ => tr (q + 1), fun i => if i = 0 then acc else [], 0, a, ks⟩
  obtain ⟨t, h1, h2⟩ := hend.base
  have hL : Lay U T I.H I.V fuel N (wLast (flagFor K)).cells I.pos :=
    lay_cell hcomma rfl (by omega) rfl rfl (lay_element he hs hend (closers_end hb) rfl rfl hN
      (lay_last (fun _ => ⟨t, h1, b, hb, h2⟩) rfl hm))
  have hV : View (wLast (flagFor K)) I := view_of (I := I) hnc hA hL (fun b h => by cases h) (fun h => by cases h) (Nat.zero_le _)
    (Nat.le_refl _) hks
  have hF' : rounds ≤ fuel := by have : rounds = 4 := rfl; omega
  have hchk := (checks_ok K).2.2.1
  unfold checkLast at hchk
  split at hchk
  case h_2 => cases hchk
  rename_i as hae
  obtain ⟨fl, s', j1, j2, j3⟩ := exec_sound (C := cx U T fuel N) hV rfl rfl
    (call_sound hV hF' (gapOk_of hL) 0 N (by omega)) hF' listLoop (a := ⟨0, listEnv (flagFor K)⟩) (s := s) ⟨hst.ps, listEnv_sound (I := I) hst rfl hfl⟩ hae
  cases fl with
  | norm => exact j2.elim
  | ret v => exact j2.elim
  | brk =>
    obtain ⟨k, rfl⟩ : ∃ m, k = m + 1 := ⟨k - 1, by omega⟩
    refine ⟨s', by simp only [iterate, j1], ?_⟩
    have := listAt_sound (I := I) hfl hchk j3
    have hat : I.at_ 2 = q + ws.length := by
      show q + 1 + ws.length - 1 = _
      omega
    rw [hat] at this
    rw [ht]
    exact this

include hU hnc hA hF in
theorem tail_cons (fs es : Exs) {ws : List Str} {tr : Nat → Node} (hw : fs.words = ws ++ ",".toList :: es.words)
    (ht : ∀ q, fs.trees T q = (tr q).pushNode .k_comma (Node.new (tokenAt T (q + ws.length)) .Symbol) ::
      es.trees T (q + ws.length + 1))
    (hE : ∀ K, fs.Ok U (.list K) → Elem U T fuel (flagFor K) ws tr ∧ es.Ok U (.list K)) (hes : ExsTail U T fuel es) :
    ExsTail U T fuel fs := by
  intro K q N k b acc ks a s hcomma hs hend hb hok hfl hks hN hk hst
  have hfl' := hfl
  have hfl := flag_of hfl
  obtain ⟨he, hok2⟩ := hE K hok
  have hwl : fs.words.length = ws.length + 1 + es.words.length := by
    rw [hw]; simp only [List.length_append, List.length_cons]; omega
  rw [hwl] at hend hN hk ⊢
  rw [hw] at hs
  have hm := hend.more
  have hp := he.pos
  have hp2 := exs_pos es hok2
  obtain ⟨f1, f2, f3⟩ := comma_follow hU hs (by omega)
  let I : Itp := ⟨U, T, [q, q + 1, q + 1 + ws.length - 1, q + 1 + ws.length, q + 1 + ws.length + 1],
    fun _ => tr (q + 1), fun i => if i = 0 then acc else [], 0, a, ks⟩
  have hL : Lay U T I.H I.V fuel N (wMore (flagFor K)).cells I.pos :=
    lay_cell hcomma rfl (by omega) rfl rfl (lay_element he (StandAt.left hs) f1 List.mem_cons_self rfl rfl
      (by omega) (lay_cell f2 rfl f1.more rfl rfl
        (lay_last (fun _ => exs_first hU hok2 f3) rfl (by omega))))
  have hV : View (wMore (flagFor K)) I := view_of (I := I) hnc hA hL (fun b h => by cases h) (fun h => by cases h) (Nat.zero_le _)
    (Nat.le_refl _) hks
  have hF' : rounds ≤ fuel := by have : rounds = 4 := rfl; omega
  have hchk := (checks_ok K).2.2.2
  unfold checkMore at hchk
  split at hchk
  case h_2 => cases hchk
  rename_i as hae
  obtain ⟨fl, s', j1, j2, j3⟩ := exec_sound (C := cx U T fuel N) hV rfl rfl
    (call_sound hV hF' (gapOk_of hL) 0 N (by omega)) hF' listLoop (a := ⟨0, listEnv (flagFor K)⟩) (s := s) ⟨hst.ps, listEnv_sound (I := I) hst rfl hfl⟩ hae
  cases fl with
  | brk => exact j2.elim
  | ret v => exact j2.elim
  | norm =>
    obtain ⟨k, rfl⟩ : ∃ m, k = m + 1 := ⟨k - 1, by omega⟩
    have hst' := listAt_sound (I := I) hfl hchk j3
    obtain ⟨s'', m1, m2⟩ := hes K (q + 1 + ws.length) N k b _ ks a s' f2 f3
      (by rw [show q + 1 + ws.length + 1 + es.words.length = q + 1 + (ws.length + 1 + es.words.length) by omega]; exact hend)
      hb hok2 hfl' hks (by omega) (by omega) hst'
    refine ⟨s'', by rw [iterate_norm j1]; exact m1, ?_⟩
    have e1 : q + 1 + ws.length + es.words.length = q + (ws.length + 1 + es.words.length) := by omega
    rw [e1] at m2
    have e2 : acc ++ fs.trees T (q + 1) = ((Term.snoc (.holes 0) (.push (.hole 1) .k_comma (.new 3 .Symbol))).ev I).2 ++
        es.trees T (q + 1 + ws.length + 1) := by
      show _ = (acc ++ [_]) ++ _
      rw [List.append_assoc, ht]
      rfl
    rw [e2]
    exact m2

include hU hnc hA hF in
theorem call_one (es : Exs) {ws : List Str} {tr : Nat → Node} (hw : es.words = ws) (ht : ∀ q, es.trees T q = [tr q])
    (hE : ∀ K, es.Ok U (.list K) → Elem U T fuel (flagFor K) ws tr) : ExsCall U T fuel es := by
  intro K q b hs hend hb hok N hN ks a hfl hks
  have hfl' := hfl
  have hfl := flag_of hfl
  have he := hE K hok
  rw [hw] at hs hend hN ⊢
  have hm := hend.more
  have hp := he.pos
  let I : Itp := ⟨U, T, [q, q + ws.length - 1, q + ws.length], fun _ => tr q, fun i => [], 0, a, ks⟩
  obtain ⟨t, h1, h2⟩ := hend.base
  have hL : Lay U T I.H I.V fuel (4 * ws.length) (wOne (flagFor K)).cells I.pos :=
    lay_element he hs hend (closers_end hb) rfl rfl (Nat.le_refl _)
      (lay_last (fun _ => ⟨t, h1, b, hb, h2⟩) rfl hm)
  have hV : View (wOne (flagFor K)) I := view_of (I := I) hnc hA hL (fun b h => by cases h) (fun h => by cases h) (Nat.zero_le _)
    (Nat.le_refl _) hks
  have hF' : rounds ≤ fuel := by have : rounds = 4 := rfl; omega
  have hchk := (checks_ok K).1
  unfold checkOne at hchk
  obtain ⟨v, k1, k2⟩ := call_sound hV hF' (gapOk_of hL) 1 N hN .parse_exprs [.someKws, flagOf (flagFor K), .bool true] [.kws ks, .bool a, .bool true] 0 _
    ⟨rfl, flag_sound (I := I) hfl, rfl, trivial⟩ (eq_of_beq hchk)
  rw [show v = _ from k2] at k1
  rw [ht]
  exact k1

include hU hnc hA hF in
theorem call_cons (fs es : Exs) {ws : List Str} {tr : Nat → Node} (hw : fs.words = ws ++ ",".toList :: es.words)
    (ht : ∀ q, fs.trees T q = (tr q).pushNode .k_comma (Node.new (tokenAt T (q + ws.length)) .Symbol) ::
      es.trees T (q + ws.length + 1))
    (hE : ∀ K, fs.Ok U (.list K) → Elem U T fuel (flagFor K) ws tr ∧ es.Ok U (.list K)) (hes : ExsTail U T fuel es) :
    ExsCall U T fuel fs := by
  intro K q b hs hend hb hok N hN ks a hfl hks
  have hfl' := hfl
  have hfl := flag_of hfl
  obtain ⟨he, hok2⟩ := hE K hok
  have hwl : fs.words.length = ws.length + 1 + es.words.length := by
    rw [hw]; simp only [List.length_append, List.length_cons]; omega
  rw [hwl] at hend hN ⊢
  rw [hw] at hs
  have hm := hend.more
  have hp := he.pos
  have hp2 := exs_pos es hok2
  obtain ⟨f1, f2, f3⟩ := comma_follow hU hs (by omega)
  obtain ⟨N, rfl⟩ : ∃ M, N = M + 1 := ⟨N - 1, by omega⟩
  let I : Itp := ⟨U, T, [q, q + ws.length - 1, q + ws.length, q + ws.length + 1],
    fun _ => tr q, fun i => [], 0, a, ks⟩
  have hL : Lay U T I.H I.V fuel N (wFirst (flagFor K)).cells I.pos :=
    lay_element he (StandAt.left hs) f1 List.mem_cons_self rfl rfl
      (by omega) (lay_cell f2 rfl f1.more rfl rfl
        (lay_last (fun _ => exs_first hU hok2 f3) rfl (by omega)))
  have hV : View (wFirst (flagFor K)) I := view_of (I := I) hnc hA hL (fun b h => by cases h) (fun h => by cases h) (Nat.zero_le _)
    (Nat.le_refl _) hks
  have hF' : rounds ≤ fuel := by have : rounds = 4 := rfl; omega
  have hchk := (checks_ok K).2.1
  unfold checkFirst at hchk
  split at hchk
  case h_2 => cases hchk
  rename_i as hae
  obtain ⟨fl, s', j1, j2, j3⟩ := exec_sound (C := cx U T fuel N) hV rfl rfl
    (call_sound hV hF' (gapOk_of hL) 0 N (by omega)) hF' listPre
    (a := ⟨0, abind Program.parse_exprs.params [.someKws, flagOf (flagFor K), .bool true]⟩) (s := ⟨⟨q, [], []⟩, bindParams Program.parse_exprs.params [.kws ks, .bool a, .bool true]⟩)
    ⟨rfl, bind_sound (I := I) _ (avs := [.someKws, flagOf (flagFor K), .bool true]) (vs := [.kws ks, .bool a, .bool true]) ⟨rfl, flag_sound (I := I) hfl, rfl, trivial⟩⟩ hae
  cases fl with
  | brk => exact j2.elim
  | ret v => exact j2.elim
  | norm =>
    have hst' := listAt_sound (I := I) hfl hchk j3
    obtain ⟨s'', m1, m2⟩ := hes K (q + ws.length) N fuel b _ ks a s' f2 f3
      (by rw [show q + ws.length + 1 + es.words.length = q + (ws.length + 1 + es.words.length) by omega]; exact hend)
      hb hok2 hfl' hks (by omega) (by omega) hst'
    have hb := exec_listPre j1
    have hl : exec (cx U T fuel N) (.loop listLoop) s' = .ok (.norm, s'') := m1
    rw [seq_of hl] at hb
    have hret : exec (cx U T fuel N) (.ret (.var v_exprs)) s'' = .ok (.ret (s''.env v_exprs), s'') := rfl
    rw [hret] at hb
    show runBody _ Program.parse_exprs _ _ = _
    unfold runBody
    rw [hb]
    simp only [m2.exprs, m2.ps]
    rw [show q + ws.length + es.words.length = q + (ws.length + 1 + es.words.length) - 1 by omega, ht]
    rfl

theorem elem_of {e : Ex} (hU : U.Lawful) (he : ExCall U T fuel e) (hok : e.Ok U loosest) (al : Option Bool) :
    Elem U T fuel al e.words (e.tree T) where
  pos := words_pos e hok
  first q hs := by
    obtain ⟨t, h1, b, h2, h3, _⟩ := first_of hU e hok hs
    exact ⟨t, h1, b, h2, h3⟩
  call q b hs hend hb N hN a ha :=
    he q loosest loosest b hs hend (nexts_name (ends_next b hb)) (closes_loosest e hok) hok (by decide) (Nat.le_refl _)
      (Nat.le_refl _) N hN a (.inl (ends_next b hb))

include hU hnc hA hF in
/-- An element with a name or a direction of sorting. -/
theorem elem_tail {e : Ex} (h : Spine U T fuel e) {t : Tail} {K : ListKind} (hok : e.Ok U loosest) (ht : t.Ok U K)
    (hcl : K = .sorted → e.closed = true) :
    Elem U T fuel (flagFor K) (e.words ++ t.words) (fun q => t.tree T (e.tree T q) (q + e.words.length)) where
  pos := by
    have := words_pos e hok
    rw [List.length_append]; omega
  first q hs := by
    obtain ⟨t, h1, b, h2, h3, _⟩ := first_of hU e hok (StandAt.left hs)
    exact ⟨t, h1, b, h2, h3⟩
  call q b hs hend hb N hN a ha := by
    have hwp := words_pos e hok
    have hm := hend.more
    have hs1 := StandAt.left hs
    have hs2 := StandAt.right hs
    have htp : 1 ≤ t.words.length := by cases t <;> simp [Tail.words]
    rw [List.length_append] at hN hend hm ⊢
    obtain ⟨N, rfl⟩ : ∃ M, N = M + 1 := ⟨N - 1, by omega⟩
    obtain ⟨te, x1, x2⟩ := hend.base
    have hlast : ∀ {q'}, q' = q + (e.words.length + t.words.length) → CellOk U T ⟨ends, none⟩ q' := by
      rintro q' rfl
      exact fun _ => ⟨te, x1, b, hb, x2⟩
    -- what is needed of the words after the expression
    have key : ∃ b0, (∃ t0, T[q + e.words.length]? = some t0 ∧ IsBase U T (q + e.words.length) t0 b0) ∧ b0.prec = some loosest ∧
        (b0 ∈ nameNexts ∨ b0 ∈ tailNexts ∧ e.closed = true) ∧ checkTail t a = true ∧
        ∃ pos : List Nat, (∀ H V, Lay U T H V fuel 0 (⟨[], none⟩ :: tailCells t ++ [⟨ends, none⟩]) ((q + e.words.length - 1) :: pos)) ∧
          (∀ I : Itp, I.T = T → I.pos = (q + e.words.length - 1) :: pos →
            ((tailTerm t).ev I).1 = t.tree T (I.H 0) (q + e.words.length)) ∧
          ((q + e.words.length - 1) :: pos).getD (tailCells t).length 0 = q + (e.words.length + t.words.length) - 1 := by
      have h0 : ∀ (H : Nat → Node) (V : Nat → List Node) {cells : List Cell} {rest : List Nat},
          Lay U T H V fuel 0 cells ((q + e.words.length) :: rest) →
          Lay U T H V fuel 0 (⟨[], none⟩ :: cells) ((q + e.words.length - 1) :: (q + e.words.length) :: rest) :=
        fun H V cells rest hL => lay_cell (fun h => absurd rfl h) rfl (by omega) rfl (by omega) hL
      cases t with
      | named l =>
        cases K with
        | plain => exact ht.elim
        | sorted => exact ht.elim
        | named =>
          obtain ⟨t0, y1, y2⟩ := hs2 0 _ rfl
          obtain ⟨t1, y3, y4⟩ := hs2 1 _ rfl
          have hl := litOk_of hU y2 (by decide)
          have hl' := atom_base hU (T := T) (q := q + e.words.length + 1) ht y4
          have hat : a = true := ha true rfl
          subst hat
          refine ⟨.lit "AS".toList, ⟨t0, y1, hl⟩, tail_prec.1, .inl List.mem_cons_self, tails_ok.1 l,
            [q + e.words.length, q + e.words.length + 1, q + e.words.length + 2], ?_, ?_, ?_⟩
          · intro H V
            exact h0 H V (lay_cell (fun _ => ⟨t0, y1, _, List.mem_singleton.2 rfl, hl⟩) rfl
              (by simp only [Tail.words, List.length_cons, List.length_nil] at hm; omega) rfl rfl
              (lay_cell (fun _ => ⟨t1, y3, _, List.mem_singleton.2 rfl, hl'⟩) rfl
              (by simp only [Tail.words, List.length_cons, List.length_nil] at hm; omega) rfl rfl
              (lay_last (hlast (by simp [Tail.words, Nat.add_assoc])) rfl
                (by simp only [Tail.words, List.length_cons, List.length_nil] at hm; omega))))
          · rintro I rfl hp
            simp only [tailTerm, Term.ev, Tail.tree, Itp.tok, Itp.at_, hp]
            rfl
          · simp [tailCells, Tail.words]
            omega
      | short l =>
        cases K with
        | plain => exact ht.elim
        | sorted => exact ht.elim
        | named =>
          obtain ⟨t0, y1, y2⟩ := hs2 0 _ rfl
          have hl := atom_base hU (T := T) (q := q + e.words.length) ht y2
          have hat : a = true := ha true rfl
          subst hat
          refine ⟨.other .Identifier, ⟨t0, y1, hl⟩, tail_prec.2.1, .inl (List.mem_cons_of_mem _ List.mem_cons_self), tails_ok.2.1 l,
            [q + e.words.length, q + e.words.length + 1], ?_, ?_, ?_⟩
          · intro H V
            exact h0 H V (lay_cell (fun _ => ⟨t0, y1, _, List.mem_singleton.2 rfl, hl⟩) rfl
              (by simp only [Tail.words, List.length_cons, List.length_nil] at hm; omega) rfl rfl
              (lay_last (hlast (by simp [Tail.words, Nat.add_assoc])) rfl
                (by simp only [Tail.words, List.length_cons, List.length_nil] at hm; omega)))
          · rintro I rfl hp
            simp only [tailTerm, Term.ev, Tail.tree, Itp.tok, Itp.at_, hp]
            rfl
          · simp [tailCells, Tail.words]
      | sorted l =>
        cases K with
        | plain => exact ht.elim
        | named => exact ht.elim
        | sorted =>
          have hlm : l ∈ ["ASC".toList, "DESC".toList] := by simpa using (show l = "ASC".toList ∨ l = "DESC".toList from ht)
          have hv : ∀ l ∈ ["ASC".toList, "DESC".toList], l ∈ vocab ∧ (Base.lit l).prec = some loosest ∧ Base.lit l ∈ tailNexts ∧
              ∀ a, checkTail (.sorted l) a = true := by decide +kernel
          obtain ⟨v1, v2, v3, v4⟩ := hv l hlm
          obtain ⟨t0, y1, y2⟩ := hs2 0 _ rfl
          have hl := litOk_of hU y2 v1
          refine ⟨.lit l, ⟨t0, y1, hl⟩, v2, .inr ⟨v3, hcl rfl⟩, v4 a,
            [q + e.words.length, q + e.words.length + 1], ?_, ?_, ?_⟩
          · intro H V
            exact h0 H V (lay_cell (fun _ => ⟨t0, y1, _, List.mem_singleton.2 rfl, hl⟩) rfl
              (by simp only [Tail.words, List.length_cons, List.length_nil] at hm; omega) rfl rfl
              (lay_last (hlast (by simp [Tail.words, Nat.add_assoc])) rfl
                (by simp only [Tail.words, List.length_cons, List.length_nil] at hm; omega)))
          · rintro I rfl hp
            simp only [tailTerm, Term.ev, Tail.tree, Itp.tok, Itp.at_, hp]
            rfl
          · simp [tailCells, Tail.words]
    obtain ⟨b0, hbase, hprec, hb0, hchk, pos, hlay, hterm, hpos⟩ := key
    obtain ⟨k, s1, s2, g1, g2, g3, g4⟩ := h q loosest loosest N b0 a hs1 ⟨hbase, by omega, hprec⟩
      (hb0.elim .inl (fun h => .inr (.inl h))) (closes_loosest e hok) hok (by decide) (Nat.le_refl _) (by omega)
      ⟨⟨q, [], []⟩, bindParams Program.parse_expr.params [.nat loosest, .bool a, .bool false, .bool false, .bool true]⟩ rfl rfl
    unfold checkTail at hchk
    simp only at hchk
    split at hchk
    case h_2 => cases hchk
    rename_i n as hae
    simp only [Bool.and_eq_true, beq_iff_eq] at hchk
    let w : Window := ⟨⟨[], none⟩ :: tailCells t ++ [⟨ends, none⟩], none, false, 0, usizeMax⟩
    let I : Itp := ⟨U, T, (q + e.words.length - 1) :: pos, fun _ => e.tree T q, fun _ => [], loosest, a, []⟩
    have hL : Lay U T I.H I.V fuel 0 w.cells I.pos := hlay _ _
    have hV : View w I := view_of (I := I) hnc hA hL (fun b h => by cases h) (fun h => by cases h) (Nat.zero_le _)
      (Nat.le_refl _) (by rfl)
    obtain ⟨v', s', z1, z2, z3⟩ := finish hF (T := T) (I := I) rfl hV (gapOk_of hL) (d := 3) (N := N) (by omega) (by omega) g3
      (loopAlias_sound (I := I) g4 rfl rfl) hae
    refine call_fin g2 (s' := s') ?_ ?_
    · rw [show v' = _ from z2] at z1
      have hn : (n.ev I).1 = t.tree T (e.tree T q) (q + e.words.length) := by
        rw [← Term.ev_norm, hchk.1]
        exact hterm I rfl rfl
      rw [hn] at z1
      exact z1
    · rw [z3.ps, hchk.2]
      unfold Itp.ps Itp.at_
      rw [show I.pos = _ from rfl, hpos]

include hU hnc hA hF
mutual
theorem ex_good : ∀ e : Ex, Spine U T fuel e
  | .atom l ty => spine_atom hU hnc hA hF l ty
  | .pre s as => spine_pre hU hnc hA hF s as (args_good as)
  | .post x s as => spine_post hU hnc hA hF x s as (ex_good x) (args_good as)
theorem exs_good : ∀ es : Exs, (ExsCall U T fuel es ∧ ∀ e, es = .one e → ExCall U T fuel e) ∧ ExsTail U T fuel es
  | .one e => by
    have he := call_of_spine hU hnc hA hF (ex_good e)
    have hE : ∀ K, (Exs.one e).Ok U (.list K) → Elem U T fuel (flagFor K) e.words (e.tree T) :=
      fun K h => elem_of hU he h (flagFor K)
    exact ⟨⟨call_one hU hnc hA hF _ rfl (fun _ => rfl) hE, fun e' h => by cases h; exact he⟩,
      tail_one hU hnc hA hF _ rfl (fun _ => rfl) hE⟩
  | .cons e es => by
    have he := call_of_spine hU hnc hA hF (ex_good e)
    have hes := (exs_good es).2
    have hE : ∀ K, (Exs.cons e es).Ok U (.list K) → Elem U T fuel (flagFor K) e.words (e.tree T) ∧ es.Ok U (.list K) :=
      fun K h => ⟨elem_of hU he h.1 (flagFor K), h.2⟩
    exact ⟨⟨call_cons hU hnc hA hF _ es rfl (fun _ => rfl) hE hes, fun e' h => by cases h⟩,
      tail_cons hU hnc hA hF _ es rfl (fun _ => rfl) hE hes⟩
  | .last e t => by
    have he := ex_good e
    have hE : ∀ K, (Exs.last e t).Ok U (.list K) → Elem U T fuel (flagFor K) (e.words ++ t.words)
        (fun q => t.tree T (e.tree T q) (q + e.words.length)) :=
      fun K h => elem_tail hU hnc hA hF he h.1 h.2.1 h.2.2
    exact ⟨⟨call_one hU hnc hA hF _ rfl (fun _ => rfl) hE, fun e' h => by cases h⟩,
      tail_one hU hnc hA hF _ rfl (fun _ => rfl) hE⟩
  | .more e t es => by
    have he := ex_good e
    have hes := (exs_good es).2
    have hE : ∀ K, (Exs.more e t es).Ok U (.list K) → Elem U T fuel (flagFor K) (e.words ++ t.words)
        (fun q => t.tree T (e.tree T q) (q + e.words.length)) ∧ es.Ok U (.list K) :=
      fun K h => ⟨elem_tail hU hnc hA hF he h.1 h.2.1 h.2.2.1, h.2.2.2⟩
    exact ⟨⟨call_cons hU hnc hA hF _ es rfl (fun _ => rfl) hE hes, fun e' h => by cases h⟩,
      tail_cons hU hnc hA hF _ es rfl (fun _ => rfl) hE hes⟩
theorem args_good : ∀ as : Args, ArgsGood U T fuel as
  | .nil => trivial
  | .cons es as => ⟨(exs_good es).1, args_good as⟩
end

end

end Verif.Sym
