import Verif.Analysis.Prec
import Verif.Proofs.TreeOps
import Verif.Proofs.Masks
/-! The two ends of a tree: operators reached through left operands and through last operands. -/
namespace Verif.PI
open Core Spec

variable {U : Unicode}

/-- What starts `n` binds tighter than `b`. -/
def LtB (U : Unicode) (n : Node) (b : Nat) : Prop :=
  ∀ a, OnLeft U n a → ∀ c, opPrec U a = some c → c < b
/-- There is an `ASC` etc. at the end of `n`. -/
def SO (U : Unicode) (n : Node) : Prop := ∃ a, OnRight U n a ∧ Ordered a
/-- What ends `n` binds at least as tight as `b`. -/
def SpA (U : Unicode) (n : Node) (b : Nat) : Prop :=
  ∀ a, OnRight U n a → ∀ c, openPrec U a = some c → c ≤ b
/-- The same, unless there is an `ASC` in between. -/
def SpB (U : Unicode) (n : Node) (b : Nat) : Prop := SO U n ∨ SpA U n b
/-- `n` does not end with an operand. -/
def Cl (U : Unicode) (n : Node) : Prop := ∀ a, OnRight U n a → openPrec U a = none

theorem ltB_iff {n : Node} {b : Nat} : LtB U n b ↔
    ∀ q, opPrec U n = some q → q < b ∧ ∀ l ∈ leftOperand n, LtB U l b := by
  constructor
  · intro h q hq
    have hs : (opPrec U n).isSome := by rw [hq]; rfl
    exact ⟨h n (.self hs) q hq, fun l hl a ha => h a (.step hs hl ha)⟩
  · intro h a ha
    cases ha with
    | self hs => intro c hc; exact (h c hc).1
    | step hs hl ha =>
      obtain ⟨q, hq⟩ := Option.isSome_iff_exists.1 hs
      exact (h q hq).2 _ hl _ ha

theorem so_iff {n : Node} : SO U n ↔ Ordered n ∨ ∃ l ∈ lastOperand U n, SO U l := by
  constructor
  · rintro ⟨a, ha, ho⟩
    cases ha with
    | self => exact .inl ho
    | step hl ha => exact .inr ⟨_, hl, a, ha, ho⟩
  · rintro (h | ⟨l, hl, a, ha, ho⟩)
    · exact ⟨n, .self n, h⟩
    · exact ⟨a, .step hl ha, ho⟩

theorem spA_iff {n : Node} {b : Nat} : SpA U n b ↔
    (∀ c, openPrec U n = some c → c ≤ b) ∧ ∀ l ∈ lastOperand U n, SpA U l b := by
  constructor
  · intro h
    exact ⟨h n (.self n), fun l hl a ha => h a (.step hl ha)⟩
  · rintro ⟨h, h'⟩ a ha
    cases ha with
    | self => exact h
    | step hl ha => exact h' _ hl _ ha

theorem cl_iff {n : Node} : Cl U n ↔ openPrec U n = none ∧ ∀ l ∈ lastOperand U n, Cl U l := by
  constructor
  · intro h
    exact ⟨h n (.self n), fun l hl a ha => h a (.step hl ha)⟩
  · rintro ⟨h, h'⟩ a ha
    cases ha with
    | self => exact h
    | step hl ha => exact h' _ hl _ ha

theorem Cl.spA {n : Node} (h : Cl U n) (b : Nat) : SpA U n b := by
  intro a ha c hc
  rw [h a ha] at hc
  cases hc

theorem byPrecedence_iff {n : Node} : ByPrecedence U n ↔
    (∀ q, opPrec U n = some q ∨ prefixPrec U n = some q → ∀ r ∈ rightOperands n, LtB U r q) ∧
    (∀ q, opPrec U n = some q → ∀ l ∈ leftOperand n, SpB U l q) :=
  ⟨fun h => ⟨h.right, h.left⟩, fun h => ⟨h.1, h.2⟩⟩

theorem LtB.mono {n : Node} {b b' : Nat} (h : LtB U n b) (hb : b ≤ b') : LtB U n b' :=
  fun a ha c hc => Nat.lt_of_lt_of_le (h a ha c hc) hb

/-! ### Types -/

theorem nonopTy_iff {nt : NodeType} : nonopTy nt = true ↔
    nt ≠ .CallingFunction ∧ nt ≠ .AccessOperator ∧ nt ≠ .DotOperator ∧ nt ≠ .FunctionChain ∧
    nt ≠ .BetweenOperator ∧ nt ≠ .InOperator ∧ nt ≠ .IsDistinctFromOperator ∧
    nt ≠ .BinaryOperator ∧ nt ≠ .UnaryOperator := by
  unfold nonopTy
  have e : ∀ b : Bool, (!b) = true ↔ ¬ b = true := by decide
  rw [e]
  simp only [Bool.or_eq_true, AI.tyEq_iff]
  tauto

theorem nonop_opPrec {n : Node} (h : nonopTy n.ty = true) : opPrec U n = none := by
  rw [nonopTy_iff] at h
  unfold opPrec
  split <;> first | rfl | (next h' => simp [h'] at h)

theorem nonop_prefix {n : Node} (h : nonopTy n.ty = true) : prefixPrec U n = none := by
  rw [nonopTy_iff] at h
  unfold prefixPrec
  split <;> first | rfl | (next h' => simp [h'] at h)

theorem nonop_open {n : Node} (h : nonopTy n.ty = true) : openPrec U n = none := by
  rw [nonopTy_iff] at h
  unfold openPrec
  split <;> first | rfl | (next h' => simp [h'] at h)

theorem nonop_last {n : Node} (h : nonopTy n.ty = true) : lastOperand U n = [] := by
  rw [nonopTy_iff] at h
  unfold lastOperand
  split <;> first | rfl | (next h' => simp [h'] at h)

theorem unary_opPrec {n : Node} (h : n.ty = .UnaryOperator) : opPrec U n = none := by
  unfold opPrec; rw [h]

theorem ltB_none {n : Node} (h : opPrec U n = none) (b : Nat) : LtB U n b := by
  rw [ltB_iff, h]; intro q hq; cases hq

theorem cl_nonop {n : Node} (h : nonopTy n.ty = true) : Cl U n := by
  rw [cl_iff, nonop_open h, nonop_last h]
  exact ⟨rfl, by simp⟩

theorem byPrec_nonop {n : Node} (h : nonopTy n.ty = true) : ByPrecedence U n := by
  rw [byPrecedence_iff, nonop_opPrec h, nonop_prefix h]
  exact ⟨fun q hq => by simp at hq, fun q hq => by simp at hq⟩

/-! ### Adding children -/

theorem ca_ne (n : Node) {k k' : Key} (h : k' ≠ k) (c : Node) :
    childrenAt (n.pushNode k c) k' = childrenAt n k' := by
  rw [childrenAt_ents, childrenAt_ents, ents_pushNode, childrenAt_upd h]

theorem cav_ne (n : Node) {k k' : Key} (h : k' ≠ k) (cs : List Node) :
    childrenAt (n.pushVec k cs) k' = childrenAt n k' := by
  rw [childrenAt_ents, childrenAt_ents, ents_pushVec, childrenAt_upd h]

theorem ca_sub {n : Node} {k k' : Key} {c l : Node} (h : l ∈ childrenAt (n.pushNode k c) k') :
    l = c ∨ l ∈ childrenAt n k' := by
  rw [childrenAt_ents] at h ⊢
  rw [ents_pushNode] at h
  obtain ⟨e, he, hl⟩ := List.mem_flatMap.1 h
  rcases mem_upd he with rfl | he
  · left
    split at hl
    · simpa using hl
    · simp at hl
  · exact .inr (List.mem_flatMap.2 ⟨e, he, hl⟩)

theorem upd_self (k : Key) (v : Bool × List Node) (l : List (Key × Bool × List Node)) : (k, v) ∈ upd k v l := by
  induction l with
  | nil => simp [upd]
  | cons a l ih =>
    simp only [upd]
    split
    · simp
    · exact List.mem_cons_of_mem _ ih

theorem ca_mem (n : Node) (k : Key) (c : Node) : c ∈ childrenAt (n.pushNode k c) k := by
  rw [childrenAt_ents, ents_pushNode]
  exact List.mem_flatMap.2 ⟨_, upd_self _ _ _, by simp⟩

theorem cav_mem (n : Node) (k : Key) {cs : List Node} {c : Node} (h : c ∈ cs) :
    c ∈ childrenAt (n.pushVec k cs) k := by
  rw [childrenAt_ents, ents_pushVec]
  exact List.mem_flatMap.2 ⟨_, upd_self _ _ _, by simpa using h⟩

/-! ### Precedences of tokens -/

/-- `get_precedence` on the text of a token. -/
def precStr (s : Str) : Nat :=
  if ([Kw.sym_lparen, .sym_lbrack].any fun k => s == k.lit) then 101
  else if ([Kw.sym_dot].any fun k => s == k.lit) then 102
  else if ([Kw.sym_star, .sym_slash, .sym_concat].any fun k => s == k.lit) then 103
  else if ([Kw.sym_plus, .sym_minus].any fun k => s == k.lit) then 104
  else if ([Kw.sym_shl, .sym_shr].any fun k => s == k.lit) then 105
  else if ([Kw.sym_amp].any fun k => s == k.lit) then 106
  else if ([Kw.sym_caret].any fun k => s == k.lit) then 107
  else if ([Kw.sym_bar].any fun k => s == k.lit) then 108
  else if ([Kw.sym_eq, .sym_lt, .sym_gt, .sym_le, .sym_ge, .sym_ne, .sym_ltgt, .LIKE, .BETWEEN,
      .IN, .IS].any fun k => s == k.lit) then 109
  else if ([Kw.AND].any fun k => s == k.lit) then 111
  else if ([Kw.OR].any fun k => s == k.lit) then 112
  else if ([Kw.sym_arrow].any fun k => s == k.lit) then 200
  else usizeMax

theorem precTable_eq (t : Token) : precTable U t = precStr (t.upper U) := rfl

theorem precStr_le (s : Str) : precStr s ≤ usizeMax := by
  have key : ∀ (b : Bool) (x y : Nat), x ≤ usizeMax → y ≤ usizeMax → (if b = true then x else y) ≤ usizeMax := by
    intro b x y hx hy; cases b
    · exact hy
    · exact hx
  unfold precStr
  repeat' first | exact Nat.le_refl _ | refine key _ _ _ (by decide) ?_

/-- A token in a mask is one of the keywords. -/
theorem mem_of_le {m : AI.Mask} {ks : List Kw} {t : Token} (h : m.le (AI.kwMask ks) = true)
    (ht : m.testBit (AI.cls U t) = true) : ∃ k ∈ ks, t.upper U = k.lit := by
  obtain ⟨k, hk, h'⟩ := (AI.testBit_kwMask ks _).1 (AI.Mask.le_has h ht)
  exact ⟨k, hk, AI.clsOf_eq.1 h'.symm⟩

theorem gp_le {toks : List Token} {ps : PS} {i q : Nat} (h : getPrecedence U toks ps i = .ok q) :
    q ≤ usizeMax := by
  unfold getPrecedence at h
  split at h <;> try cases h
  split at h
  · split at h <;> try cases h
    split at h
    · cases h; decide
    · split at h <;> cases h
      exact Nat.le_refl _
  · cases h
    exact precStr_le _

theorem not_lit : ∀ k ∈ [Kw.sym_lparen, .sym_lbrack, .sym_dot, .BETWEEN, .IN, .IS, .LIKE, .sym_star, .sym_slash,
    .sym_concat, .sym_plus, .sym_minus, .sym_shl, .sym_shr, .sym_amp, .sym_caret, .sym_bar, .sym_eq, .sym_lt,
    .sym_gt, .sym_le, .sym_ge, .sym_ne, .sym_ltgt, .AND, .OR, .sym_arrow],
    ([Kw.NOT].any fun k' => k.lit == k'.lit) = false := by decide +kernel

theorem gp_of_lit {toks : List Token} {ps : PS} {i : Nat} {t : Token} (h : getToken toks ps i = .ok t)
    (hn : ([Kw.NOT].any fun k' => t.upper U == k'.lit) = false) :
    getPrecedence U toks ps i = .ok (precStr (t.upper U)) := by
  unfold getPrecedence
  rw [h]
  have : t.inKws U [.NOT] = false := hn
  simp only [this]
  rfl

theorem maskPrec_sound {toks : List Token} {ps : PS} {i n : Nat} {t : Token} {m : AI.Mask}
    (h : getToken toks ps i = .ok t) (hm : m.testBit (AI.cls U t) = true) (hn : maskPrec m = some n) :
    getPrecedence U toks ps i = .ok n := by
  have key : ∀ ks : List Kw, m.le (AI.kwMask ks) = true → (∀ k ∈ ks, precStr k.lit = n) →
      (∀ k ∈ ks, ([Kw.NOT].any fun k' => k.lit == k'.lit) = false) →
      getPrecedence U toks ps i = .ok n := by
    intro ks h1 h2 h3
    obtain ⟨k, hk, hu⟩ := mem_of_le h1 hm
    rw [gp_of_lit h (by rw [hu]; exact h3 k hk), hu, h2 k hk]
  unfold maskPrec at hn
  split at hn
  · next h1 => cases hn; exact key _ h1 (by decide +kernel) (by decide +kernel)
  · split at hn
    · next h1 => cases hn; exact key _ h1 (by decide +kernel) (by decide +kernel)
    · split at hn
      · next h1 => cases hn; exact key _ h1 (by decide +kernel) (by decide +kernel)
      · cases hn

theorem gp_not {toks : List Token} {ps : PS} {i q : Nat} {t : Token} {m : AI.Mask}
    (h : getToken toks ps i = .ok t) (hm : m.testBit (AI.cls U t) = true)
    (hn : m.le (AI.kwMask [.NOT]) = true) (hq : getPrecedence U toks ps i = .ok q) :
    q = 109 ∨ q = usizeMax := by
  obtain ⟨k, hk, hu⟩ := mem_of_le hn hm
  have hin : t.inKws U [.NOT] = true := by
    unfold Token.inKws
    rw [List.any_eq_true]
    exact ⟨k, hk, by rw [hu]; simp⟩
  unfold getPrecedence at hq
  rw [h] at hq
  simp only [hin] at hq
  simp only [if_true] at hq
  split at hq <;> try cases hq
  split at hq
  · cases hq; exact .inl rfl
  · split at hq <;> cases hq
    exact .inr rfl

/-! ### The next token -/

theorem scan_shift (o c i : Nat) (ts : List Token) : scanFrom (o + 1) (c + 1) i ts = scanFrom o c i ts := by
  induction ts generalizing c i with
  | nil => rfl
  | cons t ts ih => simp only [scanFrom, ih, Nat.add_le_add_iff_right]

theorem scan_two {i : Nat} {ts : List Token} {j : Nat} (h : scanFrom 1 0 i ts = some j) :
    scanFrom 2 0 i ts = scanFrom 1 0 (j + 1) (ts.drop (j + 1 - i)) := by
  induction ts generalizing i with
  | nil => simp [scanFrom] at h
  | cons t ts ih =>
    have hle := (scanFrom_spec _ _ _ _ _ h).1
    simp only [scanFrom] at h ⊢
    split at h
    · next hc =>
      have hle' := (scanFrom_spec _ _ _ _ _ h).1
      rw [if_pos hc, ih h, show j + 1 - i = (j + 1 - (i + 1)) + 1 by omega, List.drop_succ_cons]
    · next hc =>
      simp only [Nat.zero_add, Nat.le_refl, if_true, Option.some.injEq] at h
      subst h
      rw [if_neg hc]
      simp only [Nat.zero_add, show ¬ 2 ≤ 1 by omega, if_false]
      rw [show i + 1 - i = 1 by omega, List.drop_succ_cons, List.drop_zero]
      exact scan_shift 1 0 _ _

theorem next_pos {toks : List Token} {ps ps' : PS} (h : nextToken toks ps = .ok ps') :
    getOffsetIndex toks ps 1 = .ok ps'.pos := by
  unfold nextToken at h
  split at h <;> try cases h
  next i hi =>
  dsimp only at h
  rw [hi]
  split at h
  · split at h <;> cases h
    rfl
  · cases h; rfl

theorem next_tok {toks : List Token} {ps ps' : PS} (h : nextToken toks ps = .ok ps') :
    getToken toks ps' 0 = getToken toks ps 1 ∧ getToken toks ps' 1 = getToken toks ps 2 := by
  have hp := next_pos h
  have hs : scanFrom 1 0 (ps.pos + 1) (toks.drop (ps.pos + 1)) = some ps'.pos := by
    unfold getOffsetIndex at hp
    simp only [Nat.one_ne_zero, if_false] at hp
    split at hp
    · next hs => cases hp; exact hs
    · split at hp <;> cases hp
  have hle := (scanFrom_spec _ _ _ _ _ hs).1
  constructor
  · unfold getToken
    rw [hp]
    simp [getOffsetIndex]
  · have : getOffsetIndex toks ps' 1 = getOffsetIndex toks ps 2 := by
      unfold getOffsetIndex
      simp only [Nat.one_ne_zero, if_false, show ¬ (2 = 0) by omega]
      rw [scan_two hs, List.drop_drop, show ps.pos + 1 + (ps'.pos + 1 - (ps.pos + 1)) = ps'.pos + 1 by omega]
    unfold getToken
    rw [this]

theorem next_prec {toks : List Token} {ps ps' : PS} (h : nextToken toks ps = .ok ps') :
    getPrecedence U toks ps' 0 = getPrecedence U toks ps 1 := by
  obtain ⟨h1, h2⟩ := next_tok h
  unfold getPrecedence
  rw [h1, h2]

end Verif.PI
