import Verif.Proofs.PrecState
/-! Soundness of the precedence analysis: building nodes. -/
namespace Verif.PI
open Core Spec Interp

variable {U : Unicode} {toks : List Token} {p q : Nat} {ps : PS}

theorem Facts.congr {v : NV} {n n' : Node} (h : Facts U toks p q ps v n) (h1 : ∀ b, LtB U n b → LtB U n' b)
    (h2 : SO U n → SO U n') (h3 : ∀ b, SpA U n b → SpA U n' b) (h4 : Cl U n → Cl U n') :
    Facts U toks p q ps v n' := by
  have h5 : ∀ b, SpB U n b → SpB U n' b := by
    rintro b (h | h)
    · exact .inl (h2 h)
    · exact .inr (h3 b h)
  have h6 : ∀ x : Prop, SO U n ∨ x → SO U n' ∨ x := by
    rintro x (h | h)
    · exact .inl (h2 h)
    · exact .inr h
  exact ⟨fun i => h1 _ (h.ltp i), fun i => h1 _ (h.ltq i), fun c i => h1 _ (h.ltc c i), fun i => h2 (h.so i),
    fun i => h4 (h.cl i), fun i c hc => h5 _ (h.tn i c hc), fun i c hc => h5 _ (h.tc i c hc),
    fun i => h5 _ (h.tq i), fun i c hc => h6 _ (h.pn i c hc), fun i c hc => h6 _ (h.qn i c hc),
    fun c hc => h6 _ (h.cn c hc)⟩

theorem Facts.any (n : Node) : Facts U toks p q ps .any n :=
  ⟨(by intro h; cases h), (by intro h; cases h), (by intro c h; cases h), (by intro h; cases h),
    (by intro h; cases h), (by intro h; cases h), (by intro h; cases h), (by intro h; cases h),
    (by intro h; cases h), (by intro h; cases h), fun _ _ => .inr (Nat.zero_le _)⟩

theorem Facts.nonop {n : Node} (h1 : opPrec U n = none) (h2 : Cl U n) : Facts U toks p q ps .nonop n :=
  ⟨fun _ => ltB_none h1 _, fun _ => ltB_none h1 _, fun _ _ => ltB_none h1 _, (by intro h; cases h),
    fun _ => h2, fun _ _ _ => .of_cl h2, fun _ _ _ => .of_cl h2, fun _ => .of_cl h2,
    (by intro h; cases h), (by intro h; cases h), fun _ _ => .inr (Nat.zero_le _)⟩

theorem Facts.kind {v : NV} {n : Node} (h : Facts U toks p q ps v n) (k : Kind) :
    Facts U toks p q ps { v with kind := k } n :=
  ⟨h.ltp, h.ltq, h.ltc, h.so, h.cl, h.tn, h.tc, h.tq, h.pn, h.qn, h.cn⟩

theorem NVOk.weak {v : NV} {n : Node} (h : NVOk U toks p q ps v n) : Facts U toks p q ps v.weak n := by
  unfold NV.weak
  split
  · next hk =>
    unfold NVOk at h
    rw [hk] at h
    refine Facts.of_un h.1 ?_ rfl rfl rfl rfl
    have h' := h.2.2
    exact ⟨h'.ltp, h'.ltq, h'.ltc, (by intro h; cases h), h'.cl, h'.tN, h'.tC, h'.tQ,
      (by intro h; cases h), (by intro h; cases h), fun _ _ => .inr (Nat.zero_le _)⟩
  · next hk => exact KindOk.facts h hk

theorem Γ.facts {v : PV} {n : Node} (h : Γ U toks p q ps v (.node n)) : Facts U toks p q ps v.nv n := by
  cases v <;> first | exact Facts.any n | exact NVOk.weak h

theorem lookNV_ok {a : PState} {s : St} {x : Var} {n : Node} (h : γ U toks a p q s) (hx : s.env x = .node n) :
    NVOk U toks p q s.ps (lookNV x a) n := by
  have := h.vars x
  rw [hx] at this
  unfold lookNV
  split
  · next v hv => rw [hv] at this; exact this
  · exact Facts.any n

/-! ### Nodes that only differ in unimportant children -/

/-- `n'` has the operands of `n`, and an `ASC` if `n` has. -/
structure Same (n n' : Node) : Prop where
  ty : n'.ty = n.ty
  tok : n'.tok = n.tok
  left : childrenAt n' .k_left = childrenAt n .k_left
  func : childrenAt n' .k_func = childrenAt n .k_func
  right : childrenAt n' .k_right = childrenAt n .k_right
  min : childrenAt n' .k_right_min = childrenAt n .k_right_min
  max : childrenAt n' .k_right_max = childrenAt n .k_right_max

section
variable {n n' : Node} (h : Same n n')
include h

theorem Same.opPrec : opPrec U n' = opPrec U n := by unfold Spec.opPrec; rw [h.ty, h.tok]
theorem Same.prefixPrec : prefixPrec U n' = prefixPrec U n := by unfold Spec.prefixPrec; rw [h.ty, h.tok]
theorem Same.openPrec : openPrec U n' = openPrec U n := by
  unfold Spec.openPrec; rw [h.ty, h.opPrec, h.prefixPrec]
theorem Same.leftOperand : leftOperand n' = leftOperand n := by
  unfold Spec.leftOperand
  rw [h.ty]
  split
  · exact h.func
  · exact h.left
theorem Same.rightOperands : rightOperands n' = rightOperands n := by
  unfold Spec.rightOperands
  rw [h.ty, h.right, h.min, h.max]
theorem Same.lastOperand : lastOperand U n' = lastOperand U n := by
  unfold Spec.lastOperand
  rw [h.ty, h.right, h.max, h.prefixPrec]

theorem Same.byPrec (hb : ByPrecedence U n) : ByPrecedence U n' := by
  rw [byPrecedence_iff] at hb ⊢
  rw [h.opPrec, h.prefixPrec, h.leftOperand, h.rightOperands]
  exact hb

theorem Same.ltB {b : Nat} (hb : LtB U n b) : LtB U n' b := by
  rw [ltB_iff] at hb ⊢
  rw [h.opPrec, h.leftOperand]
  exact hb
theorem Same.so (ho : Ordered n → Ordered n') (hb : SO U n) : SO U n' := by
  rw [so_iff] at hb ⊢
  rw [h.lastOperand]
  exact hb.imp_left ho
theorem Same.spA {b : Nat} (hb : SpA U n b) : SpA U n' b := by
  rw [spA_iff] at hb ⊢
  rw [h.openPrec, h.lastOperand]
  exact hb
theorem Same.cl (hb : Cl U n) : Cl U n' := by
  rw [cl_iff] at hb ⊢
  rw [h.openPrec, h.lastOperand]
  exact hb

theorem Same.facts {v : NV} (ho : Ordered n → Ordered n') (hf : Facts U toks p q ps v n) :
    Facts U toks p q ps v n' :=
  hf.congr (fun _ => h.ltB) (h.so ho) (fun _ => h.spA) h.cl

theorem Same.setType (ty : NodeType) : Same (n.setType ty) (n'.setType ty) :=
  ⟨rfl, h.tok, h.left, h.func, h.right, h.min, h.max⟩

theorem Same.kindOk {v : NV} {k : Kind} (ho : Ordered n → Ordered n') (hk : KindOk U toks p q ps v n k) :
    KindOk U toks p q ps v n' k := by
  cases k with
  | any => exact h.facts ho hk
  | nonop => exact ⟨h.ty ▸ hk.1, h.facts ho hk.2⟩
  | preN cur m =>
    refine ⟨h.ty ▸ hk.1, h.right ▸ hk.2.1, ?_, h.facts ho hk.2.2.2⟩
    obtain ⟨t, ht⟩ := hk.2.2.1
    exact ⟨t, h.tok ▸ ht⟩
  | preU cur m =>
    refine ⟨h.ty ▸ hk.1, h.right ▸ hk.2.1, ?_, h.facts ho hk.2.2.2⟩
    obtain ⟨t, ht⟩ := hk.2.2.1
    exact ⟨t, h.tok ▸ ht⟩
  | un => exact ⟨h.ty ▸ hk.1, (h.setType _).byPrec hk.2.1, (h.setType _).facts ho hk.2.2⟩
  | op c nr => exact ⟨h.ty ▸ hk.1, h.opPrec ▸ hk.2.1, fun i => by rw [h.right, h.max]; exact hk.2.2.1 i,
      h.facts ho hk.2.2.2⟩

end

theorem operandKey_iff {k : Key} : operandKey k = true ↔
    k = .k_left ∨ k = .k_func ∨ k = .k_right ∨ k = .k_right_min ∨ k = .k_right_max := by
  unfold operandKey
  simp only [Bool.or_eq_true, AI.key_beq]
  tauto

theorem orderKey_iff {k : Key} : orderKey k = true ↔ k = .k_order ∨ k = .k_null_order := by
  unfold orderKey
  simp only [Bool.or_eq_true, AI.key_beq]

theorem same_push (n c : Node) {k : Key} (h : operandKey k = false) : Same n (n.pushNode k c) := by
  have h' : ∀ k', operandKey k' = true → k' ≠ k := by
    rintro k' h1 rfl
    rw [h] at h1; cases h1
  exact ⟨rfl, rfl, ca_ne n (h' _ (by decide)) c, ca_ne n (h' _ (by decide)) c, ca_ne n (h' _ (by decide)) c,
    ca_ne n (h' _ (by decide)) c, ca_ne n (h' _ (by decide)) c⟩

theorem same_pushVec (n : Node) (cs : List Node) {k : Key} (h : operandKey k = false) :
    Same n (n.pushVec k cs) := by
  have h' : ∀ k', operandKey k' = true → k' ≠ k := by
    rintro k' h1 rfl
    rw [h] at h1; cases h1
  exact ⟨rfl, rfl, cav_ne n (h' _ (by decide)) cs, cav_ne n (h' _ (by decide)) cs, cav_ne n (h' _ (by decide)) cs,
    cav_ne n (h' _ (by decide)) cs, cav_ne n (h' _ (by decide)) cs⟩

theorem ordered_push {n c : Node} {k : Key} (h : Ordered n) : Ordered (n.pushNode k c) := by
  have key : ∀ k', childrenAt n k' ≠ [] → childrenAt (n.pushNode k c) k' ≠ [] := by
    intro k' h
    by_cases hk : k' = k
    · subst hk
      exact List.ne_nil_of_mem (ca_mem n k' c)
    · rw [ca_ne n hk]; exact h
  exact h.imp (key _) (key _)

theorem ordered_pushVec {n : Node} {cs : List Node} {k : Key} (hk : orderKey k = false) (h : Ordered n) :
    Ordered (n.pushVec k cs) := by
  have h' : ∀ k', orderKey k' = true → k' ≠ k := by
    rintro k' h1 rfl
    rw [hk] at h1; cases h1
  unfold Ordered
  rw [cav_ne n (h' _ (by decide)), cav_ne n (h' _ (by decide))]
  exact h

theorem ordered_of_push (n c : Node) {k : Key} (hk : orderKey k = true) : Ordered (n.pushNode k c) := by
  rcases orderKey_iff.1 hk with rfl | rfl
  · exact .inl (List.ne_nil_of_mem (ca_mem n _ c))
  · exact .inr (List.ne_nil_of_mem (ca_mem n _ c))

theorem ordered_of_pushVec (n : Node) {cs : List Node} (hc : cs ≠ []) {k : Key} (hk : orderKey k = true) :
    Ordered (n.pushVec k cs) := by
  obtain ⟨c, hc⟩ := List.exists_mem_of_ne_nil _ hc
  rcases orderKey_iff.1 hk with rfl | rfl
  · exact .inl (List.ne_nil_of_mem (cav_mem n _ hc))
  · exact .inr (List.ne_nil_of_mem (cav_mem n _ hc))

/-- A node with an `ASC`. -/
theorem orderNV_ok {v : NV} {n n' : Node} (hs : Same n n') (ho : Ordered n') (h : NVOk U toks p q ps v n) :
    NVOk U toks p q ps (orderNV v) n' := by
  have hso : SO U n' := so_iff.2 (.inl ho)
  have key : ∀ m, Facts U toks p q ps v m → SO U m → Facts U toks p q ps (orderNV v) m := by
    intro m h hm
    exact ⟨h.ltp, h.ltq, h.ltc, fun _ => hm, h.cl, fun _ _ _ => .inl hm, fun _ _ _ => .inl hm,
      fun _ => .inl hm, fun _ _ _ => .inl hm, fun _ _ _ => .inl hm, fun _ _ => .inl hm⟩
  have h' : KindOk U toks p q ps v n' v.kind := hs.kindOk (fun _ => ho) h
  unfold NVOk
  by_cases hk : v.kind = .un
  · have e : (orderNV v).kind = .any := by unfold orderNV; rw [hk]
    rw [e]
    rw [hk] at h'
    rcases h'.1 with hn | hn
    · have hl := fun b => ltB_none (nonop_opPrec (U := U) hn) b
      have hc := cl_nonop (U := U) hn
      exact ⟨fun _ => hl _, fun _ => hl _, fun _ _ => hl _, fun _ => hso, fun _ => hc, fun _ _ _ => .inl hso,
        fun _ _ _ => .inl hso, fun _ => .inl hso, fun _ _ _ => .inl hso, fun _ _ _ => .inl hso,
        fun _ _ => .inl hso⟩
    · have := h'.2.2
      rw [setType_self hn] at this
      exact key _ this hso
  · have e : (orderNV v).kind = v.kind := by
      unfold orderNV
      dsimp only
      split
      · next h => exact absurd h hk
      · rfl
    rw [e]
    have hf := key _ (h'.facts hk) hso
    generalize v.kind = k at h' hk
    cases k with
    | any => exact hf
    | nonop => exact ⟨h'.1, hf⟩
    | preN => exact ⟨h'.1, h'.2.1, h'.2.2.1, hf⟩
    | preU => exact ⟨h'.1, h'.2.1, h'.2.2.1, hf⟩
    | un => exact absurd rfl hk
    | op => exact ⟨h'.1, h'.2.1, h'.2.2.1, hf⟩

/-! ### Operands -/

theorem isKey_iff {a b : Key} : isKey a b = true ↔ a = b := AI.key_beq

section
variable {n c : Node} {k : Key}

theorem left_sub {l : Node} (h : l ∈ leftOperand (n.pushNode k c)) : l = c ∨ l ∈ leftOperand n :=
  ca_sub h

theorem left_ne (h1 : k ≠ .k_left) (h2 : k ≠ .k_func) : leftOperand (n.pushNode k c) = leftOperand n := by
  unfold leftOperand
  refine ca_ne n ?_ c
  split
  · exact h2.symm
  · exact h1.symm

theorem right_sub {l : Node} (h : l ∈ rightOperands (n.pushNode k c)) : l = c ∨ l ∈ rightOperands n := by
  unfold rightOperands at h ⊢
  simp only [show (n.pushNode k c).ty = n.ty from rfl] at h
  split at h
  · exact ca_sub h
  · exact ca_sub h
  · exact ca_sub h
  · exact ca_sub h
  · rcases List.mem_append.1 h with h | h
    · exact (ca_sub h).imp_right (List.mem_append_left _)
    · exact (ca_sub h).imp_right (List.mem_append_right _)
  · simp at h

theorem right_ne (h1 : k ≠ .k_right) (h2 : k ≠ .k_right_min) (h3 : k ≠ .k_right_max) :
    rightOperands (n.pushNode k c) = rightOperands n := by
  unfold rightOperands
  rw [ca_ne n h1.symm, ca_ne n h2.symm, ca_ne n h3.symm]
  rfl

theorem last_ne (h1 : k ≠ .k_right) (h3 : k ≠ .k_right_max) :
    lastOperand U (n.pushNode k c) = lastOperand U n := by
  unfold lastOperand
  rw [ca_ne n h1.symm, ca_ne n h3.symm]
  rfl

theorem push_ltB {b : Nat} (h1 : k ≠ .k_left) (h2 : k ≠ .k_func) (h : LtB U n b) : LtB U (n.pushNode k c) b := by
  rw [ltB_iff] at h ⊢
  rw [left_ne h1 h2]
  exact h

theorem push_so (h1 : k ≠ .k_right) (h2 : k ≠ .k_right_max) (h : SO U n) : SO U (n.pushNode k c) := by
  rw [so_iff] at h ⊢
  rw [last_ne h1 h2]
  exact h.imp_left ordered_push

theorem push_spA {b : Nat} (h1 : k ≠ .k_right) (h2 : k ≠ .k_right_max) (h : SpA U n b) :
    SpA U (n.pushNode k c) b := by
  rw [spA_iff] at h ⊢
  rw [last_ne h1 h2]
  exact h

theorem push_cl (h1 : k ≠ .k_right) (h2 : k ≠ .k_right_max) (h : Cl U n) : Cl U (n.pushNode k c) := by
  rw [cl_iff] at h ⊢
  rw [last_ne h1 h2]
  exact h

/-- Operands of a node that is no operator. -/
theorem push_nonop {v : NV} (hn : nonopTy n.ty = true) (h : Facts U toks p q ps v n) :
    Facts U toks p q ps v (n.pushNode k c) := by
  have hn' : nonopTy (n.pushNode k c).ty = true := hn
  refine h.congr (fun b _ => ltB_none (nonop_opPrec hn') b) ?_ (fun b _ => (cl_nonop hn').spA b)
    (fun _ => cl_nonop hn')
  intro h
  rw [so_iff, nonop_last hn] at h
  rw [so_iff]
  rcases h with h | ⟨l, hl, _⟩
  · exact .inl (ordered_push h)
  · simp at hl

end

theorem rowOf_none {table : List (Nat × List Kw)} {s : Str}
    (h : ∀ e ∈ table, ∀ k ∈ e.2, s ≠ k.lit) : rowOf table s = none := by
  unfold rowOf
  rw [Option.map_eq_none_iff, List.find?_eq_none]
  intro e he h'
  obtain ⟨k, hk, hs⟩ := List.any_eq_true.1 h'
  exact h e he k hk (by simpa using hs)

/-- The precedence of a prefix operator from the classes of its token. -/
theorem maskPrefix_sound {t : Token} {m : AI.Mask} {o : Option Nat} (ht : m.testBit (AI.cls U t) = true)
    (h : maskPrefix m = some o) : rowOf prefixTable (t.upper U) = o := by
  unfold maskPrefix at h
  split at h
  · next h' =>
    cases h
    obtain ⟨k, hk, hu⟩ := mem_of_le h' ht
    rw [hu]
    revert hk; revert k
    have : ∀ k ∈ [Kw.sym_minus, .sym_plus, .sym_tilde], rowOf prefixTable k.lit = some 102 := by decide +kernel
    intro k _ hk; exact this k hk
  · split at h
    · next h' =>
      cases h
      obtain ⟨k, hk, hu⟩ := mem_of_le h' ht
      rw [hu]
      have : ∀ k ∈ [Kw.NOT], rowOf prefixTable k.lit = some 110 := by decide +kernel
      exact this k hk
    · split at h
      · next h' =>
        cases h
        refine rowOf_none ?_
        intro e he k hk hs
        have hk' : k ∈ [Kw.sym_minus, .sym_plus, .sym_tilde, .NOT] := by
          unfold prefixTable at he
          simp only [List.mem_cons, List.not_mem_nil, or_false] at he
          rcases he with rfl | rfl <;> simp only [List.mem_cons, List.not_mem_nil, or_false] at hk ⊢ <;> tauto
        have hb := (AI.testBit_kwMask _ (AI.cls U t)).2 ⟨k, hk', (AI.clsOf_eq.2 hs).symm⟩
        have := Nat.eq_of_beq_eq_true h'
        have h2 : (m &&& AI.kwMask [.sym_minus, .sym_plus, .sym_tilde, .NOT]).testBit (AI.cls U t) = true := by
          rw [Nat.testBit_and, ht, hb]; rfl
        rw [this] at h2
        simp at h2
      · cases h

theorem pushPrefix_sound {n c : Node} {m : AI.Mask} {cv w : NV} {t : Token}
    (hn : nonopTy n.ty = true ∨ n.ty = .UnaryOperator) (hr : childrenAt n .k_right = []) (ht : n.tok = some t)
    (hm : m.testBit (AI.cls U t) = true) (hc : Facts U toks p q ps cv c) (e : pushPrefix m cv = .ok w) :
    NVOk U toks p q ps w (n.pushNode .k_right c) ∧ ByPrecedence U (n.pushNode .k_right c) := by
  generalize hu : (n.pushNode .k_right c).setType .UnaryOperator = u
  have hty : u.ty = .UnaryOperator := by rw [← hu]; rfl
  have hprec : prefixPrec U u = rowOf prefixTable (t.upper U) := by
    rw [← hu]
    show (n.tok.bind fun t => rowOf prefixTable (t.upper U)) = _
    rw [ht]; rfl
  have hop : opPrec U u = none := unary_opPrec hty
  have hsub : ∀ l ∈ childrenAt u .k_right, l = c := by
    intro l hl
    have hl' : l ∈ childrenAt (n.pushNode .k_right c) .k_right := by rw [← hu] at hl; exact hl
    rcases ca_sub hl' with h | h
    · exact h
    · rw [hr] at h; simp at h
  have hmem : c ∈ childrenAt u .k_right := by rw [← hu]; exact ca_mem n .k_right c
  have hright : rightOperands u = childrenAt u .k_right := by unfold rightOperands; rw [hty]
  have hopen : openPrec U u = prefixPrec U u := by unfold openPrec; rw [hty]
  -- it is enough to treat `u`
  have fin : ByPrecedence U u → Facts U toks p q ps w u → w.kind = .un →
      NVOk U toks p q ps w (n.pushNode .k_right c) ∧ ByPrecedence U (n.pushNode .k_right c) := by
    intro h1 h2 h3
    refine ⟨?_, ?_⟩
    · unfold NVOk
      rw [h3]
      exact ⟨hn, hu ▸ h1, hu ▸ h2⟩
    · rcases hn with hn | hn
      · exact byPrec_nonop hn
      · have : u = n.pushNode .k_right c := by rw [← hu]; exact setType_self hn
        rw [← this]; exact h1
  unfold pushPrefix at e
  split at e
  · cases e
  · next hmp =>
    cases e
    have hpn : prefixPrec U u = none := by rw [hprec]; exact maskPrefix_sound hm hmp
    refine fin ?_ ?_ rfl
    · rw [byPrecedence_iff, hop, hpn]
      exact ⟨fun q hq => by simp at hq, fun q hq => by simp at hq⟩
    · refine (Facts.nonop hop ?_).kind _
      rw [cl_iff, hopen, hpn]
      refine ⟨rfl, ?_⟩
      unfold lastOperand
      rw [hty]
      dsimp only
      rw [hpn]
      simp
  · next b hmp =>
    split at e
    · next hlt =>
      cases e
      have hpn : prefixPrec U u = some b := by rw [hprec]; exact maskPrefix_sound hm hmp
      have hlast : lastOperand U u = childrenAt u .k_right := by
        unfold lastOperand
        rw [hty]
        dsimp only
        rw [hpn]
        simp
      have hso : SO U c → SO U u := fun h => so_iff.2 (.inr ⟨c, hlast ▸ hmem, h⟩)
      have hsp : ∀ x, SpA U c x → b ≤ x → SpA U u x := by
        intro x h hb
        rw [spA_iff, hopen, hpn, hlast]
        refine ⟨fun y hy => by cases hy; exact hb, fun l hl => ?_⟩
        rw [hsub l hl]; exact h
      refine fin ?_ ?_ rfl
      · rw [byPrecedence_iff, hop, hpn, hright]
        refine ⟨?_, fun q hq => by simp at hq⟩
        rintro x (hx | hx) l hl
        · cases hx
        · cases hx
          rw [hsub l hl]
          exact hc.ltcLe hlt
      · refine ⟨fun _ => ltB_none hop _, fun _ => ltB_none hop _, fun _ _ => ltB_none hop _, fun i => hso (hc.so i),
          (by intro h; cases h), ?_, fun i _ _ => .inl (hso (hc.so i)), fun i => .inl (hso (hc.so i)),
          (by intro h; cases h), (by intro h; cases h), fun _ _ => .inr (Nat.zero_le _)⟩
        intro i x hx
        dsimp only at i
        simp only [Bool.or_eq_true, Bool.and_eq_true, Nat.ble_eq] at i
        rcases i with i | ⟨i, j⟩
        · exact .inl (hso (hc.so i))
        · rcases hc.tN i x hx with h | h
          · exact .inl (hso h)
          · rcases hc.cn x hx with h' | h'
            · exact .inl (hso h')
            · exact .inr (hsp x h (Nat.le_trans j h'))
    · cases e

theorem prefixPrec_op {n : Node} {b : Nat} (h : opPrec U n = some b) : prefixPrec U n = none := by
  unfold prefixPrec
  split
  · next h' => unfold opPrec at h; rw [h'] at h; cases h
  · rfl

/-- The last operand of a binary operator or `BETWEEN`. -/
theorem pushLast_sound {n c : Node} {k : Key} {v cv : NV} {cl : Cls} (hop : opPrec U n = some q)
    (hh : cl.Has n.ty) (hopen : openPrec U (n.pushNode k c) = some q)
    (h1 : k ≠ .k_left) (h2 : k ≠ .k_func) (hlast : lastOperand U (n.pushNode k c) = childrenAt (n.pushNode k c) k)
    (hr : childrenAt n k = []) (hv : Facts U toks p q ps v n) (hc : Facts U toks p q ps cv c) :
    NVOk U toks p q ps { v with kind := .op cl false, so := cv.so, cl := false, tq := cv.so, tc := cv.so,
                                tn := cv.so || (cv.tN && cv.qn), pn := false, qn := false, cn := 0 }
      (n.pushNode k c) := by
  have hsub : ∀ l ∈ lastOperand U (n.pushNode k c), l = c := by
    intro l hl
    rw [hlast] at hl
    rcases ca_sub hl with h | h
    · exact h
    · rw [hr] at h; simp at h
  have hso : SO U c → SO U (n.pushNode k c) := fun h => so_iff.2 (.inr ⟨c, hlast ▸ ca_mem n k c, h⟩)
  have hsp : ∀ x, SpA U c x → q ≤ x → SpA U (n.pushNode k c) x := by
    intro x h hb
    rw [spA_iff, hopen]
    refine ⟨fun y hy => by cases hy; exact hb, fun l hl => ?_⟩
    rw [hsub l hl]; exact h
  refine ⟨hh, hop, (by intro h; cases h), ?_⟩
  refine ⟨fun i => push_ltB h1 h2 (hv.ltp i), fun i => push_ltB h1 h2 (hv.ltq i),
    fun x i => push_ltB h1 h2 (hv.ltc x i), fun i => hso (hc.so i), (by intro h; cases h), ?_,
    fun i _ _ => .inl (hso (hc.so i)), fun i => .inl (hso (hc.so i)), (by intro h; cases h),
    (by intro h; cases h), fun _ _ => .inr (Nat.zero_le _)⟩
  intro i x hx
  dsimp only at i
  simp only [Bool.or_eq_true, Bool.and_eq_true] at i
  rcases i with i | ⟨i, j⟩
  · exact .inl (hso (hc.so i))
  · rcases hc.tN i x hx with h | h
    · exact .inl (hso h)
    · rcases hc.qn j x hx with h' | h'
      · exact .inl (hso h')
      · exact .inr (hsp x h h')

theorem pushOperand_sound {n c : Node} {t0 : AI.Mask} {k : Key} {v cv w : NV}
    (hm : ∀ t, getToken toks ps 0 = .ok t → t0.testBit (AI.cls U t) = true)
    (hv : NVOk U toks p q ps v n) (hb : ByPrecedence U n) (hc : Facts U toks p q ps cv c)
    (hk : operandKey k = true) (e : pushOperand t0 k cv v = .ok w) :
    NVOk U toks p q ps w (n.pushNode k c) ∧ ByPrecedence U (n.pushNode k c) := by
  have tokm : ∀ cur m, TokIn U toks ps cur m n →
      ∃ t, n.tok = some t ∧ (if cur = true then t0 else m).testBit (AI.cls U t) = true := by
    rintro cur m ⟨t, h1, h2, h3⟩
    refine ⟨t, h1, ?_⟩
    cases cur with
    | true => exact hm t (h2 rfl)
    | false => exact h3 rfl
  have hb' := byPrecedence_iff.1 hb
  -- an operator gets another operand on the right
  have right_ok : opPrec U n = some q → LtB U c q → k ≠ .k_left → k ≠ .k_func →
      ByPrecedence U (n.pushNode k c) := by
    intro hop hlt h1 h2
    rw [byPrecedence_iff]
    refine ⟨?_, ?_⟩
    · rintro x hx r hr
      have hx' : x = q := by
        rcases hx with hx | hx
        · have : opPrec U n = some x := hx
          rw [hop] at this; cases this; rfl
        · have : prefixPrec U n = some x := hx
          rw [prefixPrec_op hop] at this; cases this
      rcases right_sub hr with rfl | hr
      · rw [hx']; exact hlt
      · exact hb'.1 x hx r hr
    · intro x hx l hl
      rw [left_ne h1 h2] at hl
      exact hb'.2 x hx l hl
  unfold pushOperand at e
  have hv' := hv
  unfold NVOk at hv
  generalize hkind : v.kind = kd at hv e
  cases kd with
  | any => cases e
  | nonop =>
    cases e
    refine ⟨?_, byPrec_nonop hv.1⟩
    unfold NVOk
    rw [hkind]
    exact ⟨hv.1, push_nonop hv.1 hv.2⟩
  | preN cur m =>
    dsimp only at e
    split at e
    · next hr =>
      rw [isKey_iff] at hr
      subst hr
      obtain ⟨t, h1, h2⟩ := tokm _ _ hv.2.2.1
      exact pushPrefix_sound (.inl hv.1) hv.2.1 h1 h2 hc e
    · next hr =>
      cases e
      have hr' : k ≠ .k_right := fun h => hr (isKey_iff.2 h)
      refine ⟨?_, byPrec_nonop hv.1⟩
      unfold NVOk
      rw [hkind]
      refine ⟨hv.1, ?_, hv.2.2.1, push_nonop hv.1 hv.2.2.2⟩
      rw [ca_ne n hr'.symm]; exact hv.2.1
  | preU cur m =>
    dsimp only at e
    split at e
    · next hr =>
      rw [isKey_iff] at hr
      subst hr
      obtain ⟨t, h1, h2⟩ := tokm _ _ hv.2.2.1
      exact pushPrefix_sound (.inr hv.1) hv.2.1 h1 h2 hc e
    · next hr =>
      cases e
      have hr' : k ≠ .k_right := fun h => hr (isKey_iff.2 h)
      have hty : (n.pushNode k c).ty = .UnaryOperator := hv.1
      have hlast : lastOperand U (n.pushNode k c) = lastOperand U n := by
        unfold lastOperand
        rw [hty, hv.1, ca_ne n hr'.symm]
        rfl
      refine ⟨?_, ?_⟩
      · unfold NVOk
        rw [hkind]
        refine ⟨hv.1, ?_, hv.2.2.1, ?_⟩
        · rw [ca_ne n hr'.symm]; exact hv.2.1
        · refine hv.2.2.2.congr (fun b _ => ltB_none (unary_opPrec hty) b) ?_ ?_ ?_
          · intro h
            rw [so_iff] at h ⊢
            rw [hlast]; exact h.imp_left ordered_push
          · intro b h
            rw [spA_iff] at h ⊢
            rw [hlast]; exact h
          · intro h
            rw [cl_iff] at h ⊢
            rw [hlast]; exact h
      · have hright : rightOperands (n.pushNode k c) = rightOperands n := by
          unfold rightOperands
          rw [hty, hv.1, ca_ne n hr'.symm]
        rw [byPrecedence_iff, unary_opPrec hty, hright]
        refine ⟨?_, fun x hx => by cases hx⟩
        rintro x (hx | hx)
        · cases hx
        · exact hb'.1 x (.inr hx)
  | un => cases e
  | op cl nr =>
    obtain ⟨hh, hop, hnr, hf⟩ := hv
    dsimp only at e
    split at e
    · next hkl =>
      simp only [Bool.or_eq_true, isKey_iff] at hkl
      have hr1 : k ≠ .k_right := by rcases hkl with rfl | rfl <;> decide
      have hr2 : k ≠ .k_right_min := by rcases hkl with rfl | rfl <;> decide
      have hr3 : k ≠ .k_right_max := by rcases hkl with rfl | rfl <;> decide
      split at e
      · next htq =>
        cases e
        refine ⟨?_, ?_⟩
        · unfold NVOk
          dsimp only
          refine ⟨hh, hop, ?_, ?_⟩
          · rw [ca_ne n hr1.symm, ca_ne n hr3.symm]
            exact hnr
          · have hB : ∀ x, SpB U n x → SpB U (n.pushNode k c) x := by
              rintro x (h | h)
              · exact .inl (push_so hr1 hr3 h)
              · exact .inr (push_spA hr1 hr3 h)
            refine ⟨?_, (by intro h; cases h), (by intro x h; cases h), fun i => push_so hr1 hr3 (hf.so i),
              fun i => push_cl hr1 hr3 (hf.cl i), fun i x hx => hB x (hf.tn i x hx),
              fun i x hx => hB x (hf.tc i x hx), fun i => hB _ (hf.tq i),
              fun i x hx => (hf.pn i x hx).imp_left (push_so hr1 hr3),
              fun i x hx => (hf.qn i x hx).imp_left (push_so hr1 hr3),
              fun x hx => (hf.cn x hx).imp_left (push_so hr1 hr3)⟩
            intro i
            dsimp only at i
            simp only [Bool.and_eq_true] at i
            have h1 := ltB_iff.1 (hf.ltP i.1) q hop
            rw [ltB_iff]
            intro x hx
            have : opPrec U n = some x := hx
            rw [hop] at this
            cases this
            refine ⟨h1.1, fun l hl => ?_⟩
            rcases left_sub hl with rfl | hl
            · exact hc.ltP i.2
            · exact h1.2 l hl
        · rw [byPrecedence_iff]
          refine ⟨?_, ?_⟩
          · rw [right_ne hr1 hr2 hr3]
            exact hb'.1
          · intro x hx l hl
            have : opPrec U n = some x := hx
            rw [hop] at this
            cases this
            rcases left_sub hl with rfl | hl
            · exact hc.tQ htq
            · exact hb'.2 _ hx l hl
      · cases e
    · next hkl =>
      simp only [Bool.or_eq_true, isKey_iff, not_or] at hkl
      obtain ⟨h1, h2⟩ := hkl
      cases cl with
      | post =>
        cases e
        have hlast : lastOperand U n = [] := by
          unfold lastOperand
          rcases hh with h | h | h | h <;> rw [h]
        have hlast' : lastOperand U (n.pushNode k c) = [] := by
          unfold lastOperand
          have : (n.pushNode k c).ty = n.ty := rfl
          rcases hh with h | h | h | h <;> rw [this, h]
        have hright : rightOperands (n.pushNode k c) = [] := by
          unfold rightOperands
          have : (n.pushNode k c).ty = n.ty := rfl
          rcases hh with h | h | h | h <;> rw [this, h]
        have hopen : openPrec U (n.pushNode k c) = none := by
          unfold openPrec
          have : (n.pushNode k c).ty = n.ty := rfl
          rcases hh with h | h | h | h <;> rw [this, h]
        have hcl : Cl U (n.pushNode k c) := by
          rw [cl_iff, hopen, hlast']; exact ⟨rfl, by simp⟩
        refine ⟨?_, ?_⟩
        · -- the children `right` etc. of these nodes are of no importance
          unfold NVOk
          rw [hkind]
          refine ⟨hh, hop, ?_, ?_⟩
          · exact fun _ => ⟨(by intro h; cases h), (by intro h; cases h)⟩
          · refine hf.congr (fun b => push_ltB h1 h2) ?_ (fun b _ => hcl.spA b) (fun _ => hcl)
            intro h
            rw [so_iff, hlast] at h
            rw [so_iff]
            rcases h with h | ⟨l, hl, _⟩
            · exact .inl (ordered_push h)
            · simp at hl
        · rw [byPrecedence_iff, hright, left_ne h1 h2]
          exact ⟨fun _ _ r hr => by simp at hr, hb'.2⟩
      | inn =>
        dsimp only at e
        split at e
        · next hlt =>
          cases e
          have hty : (n.pushNode k c).ty = .InOperator := hh
          have hty0 : n.ty = .InOperator := hh
          have hlast : lastOperand U n = [] := by unfold lastOperand; rw [hty0]
          have hlast' : lastOperand U (n.pushNode k c) = [] := by unfold lastOperand; rw [hty]
          have hopen : openPrec U (n.pushNode k c) = none := by unfold openPrec; rw [hty]
          have hcl : Cl U (n.pushNode k c) := by
            rw [cl_iff, hopen, hlast']; exact ⟨rfl, by simp⟩
          refine ⟨?_, right_ok hop (hc.ltQ hlt) h1 h2⟩
          unfold NVOk
          rw [hkind]
          refine ⟨hh, hop, ?_, ?_⟩
          · exact fun _ => ⟨(by intro h; cases h), (by intro h; cases h)⟩
          · refine hf.congr (fun b => push_ltB h1 h2) ?_ (fun b _ => hcl.spA b) (fun _ => hcl)
            intro h
            rw [so_iff, hlast] at h
            rw [so_iff]
            rcases h with h | ⟨l, hl, _⟩
            · exact .inl (ordered_push h)
            · simp at hl
        · cases e
      | btw =>
        dsimp only at e
        split at e
        · next hlt =>
          split at e
          · next hkm =>
            rw [isKey_iff] at hkm
            subst hkm
            cases e
            refine ⟨?_, right_ok hop (hc.ltQ hlt) h1 h2⟩
            unfold NVOk
            rw [hkind]
            refine ⟨hh, hop, ?_, ?_⟩
            · intro i
              refine ⟨(by intro h; cases h), fun _ => ?_⟩
              rw [ca_ne n (by decide)]
              exact (hnr i).2 rfl
            · exact hf.congr (fun b => push_ltB h1 h2) (push_so (by decide) (by decide))
                (fun b => push_spA (by decide) (by decide)) (push_cl (by decide) (by decide))
          · split at e
            · next hkm =>
              simp only [Bool.and_eq_true, isKey_iff] at hkm
              obtain ⟨rfl, rfl⟩ := hkm
              cases e
              have hty : (n.pushNode .k_right_max c).ty = .BetweenOperator := hh
              refine ⟨?_, right_ok hop (hc.ltQ hlt) h1 h2⟩
              refine pushLast_sound hop hh ?_ h1 h2 ?_ ((hnr rfl).2 rfl) hf hc
              · unfold openPrec
                rw [hty]
                exact hop
              · unfold lastOperand
                rw [hty]
            · cases e
        · cases e
      | bin =>
        dsimp only at e
        split at e
        · next hlt =>
          split at e
          · next hkm =>
            simp only [Bool.and_eq_true, isKey_iff] at hkm
            obtain ⟨rfl, rfl⟩ := hkm
            cases e
            have hty : (n.pushNode .k_right c).ty = n.ty := rfl
            refine ⟨?_, right_ok hop (hc.ltQ hlt) h1 h2⟩
            refine pushLast_sound hop hh ?_ h1 h2 ?_ ((hnr rfl).1 rfl) hf hc
            · unfold openPrec
              rcases hh with h | h <;> rw [hty, h] <;> exact hop
            · unfold lastOperand
              rcases hh with h | h <;> rw [hty, h]
          · cases e
        · cases e

end Verif.PI
