import Verif.Proofs.AcceptCond
/-! Soundness of the acceptance analysis, part 4: commands and calls. -/
namespace Verif.GI
open AI Spec Core

theorem kwsEq_eq : ∀ {a b : List Kw}, kwsEq a b = true → a = b
  | [], [], _ => rfl
  | a :: as, b :: bs, h => by
    simp only [kwsEq, Bool.and_eq_true] at h
    rw [kw_inj (Nat.eq_of_beq_eq_true h.1), kwsEq_eq h.2]
  | [], _ :: _, h => by simp [kwsEq] at h
  | _ :: _, [], h => by simp [kwsEq] at h

theorem GV.le_sound {U : Unicode} {a b : GV} {v : Val} (h : a.le b = true) (hv : GVRel U a v) : GVRel U b v := by
  cases a <;> cases b <;> simp only [GV.le, Bool.false_eq_true] at h
  · rw [beq_iff_eq] at h; subst h; exact hv
  · rw [Nat.eq_of_beq_eq_true h] at hv; exact hv
  · exact ⟨_, Nat.le_of_ble_eq_true h, hv⟩
  · obtain ⟨k, h1, h2⟩ := hv
    exact ⟨k, Nat.le_trans h1 (Nat.le_of_ble_eq_true h), h2⟩
  · rw [kwsEq_eq h] at hv; exact hv
  · obtain ⟨l, h1, h2⟩ := hv
    exact ⟨l, h1, Mask.le_has h h2⟩

theorem argLe_sound {U : Unicode} {a b : Option GV} {v : Val} (h : argLe a b = true) (hv : ORel U a v) :
    ORel U b v := by
  cases b with
  | none => trivial
  | some b =>
    cases a with
    | none => simp [argLe] at h
    | some a => exact GV.le_sound h hv

theorem argsLe_sound {U : Unicode} : ∀ {as bs : List (Option GV)} {vs : List Val}, argsLe as bs = true →
    List.Forall₂ (ORel U) as vs → List.Forall₂ (ORel U) bs vs
  | [], [], _, _, h => h
  | a :: as, b :: bs, _, h, hv => by
    cases hv with
    | cons h1 h2 =>
      simp only [argsLe, Bool.and_eq_true] at h
      exact .cons (argLe_sound h.1 h1) (argsLe_sound h.2 h2)
  | [], _ :: _, _, h, _ => by simp [argsLe] at h
  | _ :: _, [], _, h, _ => by simp [argsLe] at h

theorem envEq_sound {U : Unicode} {env : Env} : ∀ {d e : List (Var × GV)}, envEq d e = true →
    (EnvRel U d env ↔ EnvRel U e env)
  | [], [], _ => Iff.rfl
  | (x, v) :: d, (y, w) :: e, h => by
    simp only [envEq, Bool.and_eq_true] at h
    obtain ⟨⟨⟨h1, h2⟩, h3⟩, h4⟩ := h
    have := Nat.eq_of_beq_eq_true h1
    subst this
    have key : ∀ d : List (Var × GV), ∀ e : List (Var × GV), ∀ z g, envEq d e = true → GS.look z d = some g →
        ∃ g', GS.look z e = some g' ∧ g.le g' = true ∧ g'.le g = true := by
      intro d
      induction d with
      | nil => intro e z g _ hl; simp [GS.look] at hl
      | cons p d ih =>
        intro e z g he hl
        obtain ⟨a, b⟩ := p
        cases e with
        | nil => simp [envEq] at he
        | cons q e =>
          obtain ⟨a', b'⟩ := q
          simp only [envEq, Bool.and_eq_true] at he
          obtain ⟨⟨⟨h1, h2⟩, h3⟩, h4⟩ := he
          have := Nat.eq_of_beq_eq_true h1
          subst this
          simp only [GS.look] at hl ⊢
          cases hz : Nat.beq z a with
          | true => rw [hz] at hl; cases hl; exact ⟨b', rfl, h2, h3⟩
          | false => rw [hz] at hl; exact ih e z g h4 hl
    have key' : ∀ d : List (Var × GV), ∀ e : List (Var × GV), ∀ z g, envEq d e = true → GS.look z e = some g →
        ∃ g', GS.look z d = some g' ∧ g'.le g = true := by
      intro d
      induction d with
      | nil =>
        intro e z g he hl
        cases e with
        | nil => simp [GS.look] at hl
        | cons q e => simp [envEq] at he
      | cons p d ih =>
        intro e z g he hl
        obtain ⟨a, b⟩ := p
        cases e with
        | nil => simp [envEq] at he
        | cons q e =>
          obtain ⟨a', b'⟩ := q
          simp only [envEq, Bool.and_eq_true] at he
          obtain ⟨⟨⟨h1, h2⟩, h3⟩, h4⟩ := he
          have := Nat.eq_of_beq_eq_true h1
          subst this
          simp only [GS.look] at hl ⊢
          cases hz : Nat.beq z a with
          | true => rw [hz] at hl; cases hl; exact ⟨b, rfl, h2⟩
          | false => rw [hz] at hl; exact ih e z g h4 hl
    have hfull : envEq ((x, v) :: d) ((x, w) :: e) = true := by
      simp only [envEq, Bool.and_eq_true]; exact ⟨⟨⟨h1, h2⟩, h3⟩, h4⟩
    constructor
    · intro hd z g hz
      obtain ⟨g', h5, h6⟩ := key' _ _ z g hfull hz
      exact GV.le_sound h6 (hd z g' h5)
    · intro he z g hz
      obtain ⟨g', h5, _, h6⟩ := key _ _ z g hfull hz
      exact GV.le_sound h6 (he z g' h5)
  | [], _ :: _, h => by simp [envEq] at h
  | _ :: _, [], h => by simp [envEq] at h

section
variable {G : Tables} (hG : TOk G) {U : Unicode} (hU : U.Lawful) {toks : List Token} (ok : TokOk toks)
variable {r : List Nat}

/-- One of the abstract states describes the state. -/
def In (G : Tables) (U : Unicode) (toks : List Token) (r : List Nat) (S : List GS) (st : St) : Prop :=
  ∃ s ∈ S, Sim G U toks r s st

local notation "⟦" S "⟧" => In G U toks r S

theorem In.append_left {S T : List GS} {st : St} (h : ⟦S⟧ st) : ⟦S ++ T⟧ st := by
  obtain ⟨s, h1, h2⟩ := h; exact ⟨s, by simp [h1], h2⟩

theorem In.append_right {S T : List GS} {st : St} (h : ⟦T⟧ st) : ⟦S ++ T⟧ st := by
  obtain ⟨s, h1, h2⟩ := h; exact ⟨s, by simp [h1], h2⟩

theorem In.of_append {S T : List GS} {st : St} (h : ⟦S ++ T⟧ st) : ⟦S⟧ st ∨ ⟦T⟧ st := by
  obtain ⟨s, h1, h2⟩ := h
  rcases List.mem_append.1 h1 with h1 | h1
  · exact .inl ⟨s, h1, h2⟩
  · exact .inr ⟨s, h1, h2⟩

theorem RestOk.le {m k : Mask} {r : List Nat} (h : RestOk m r)
    (hk : (noRest k || (!noRest m && Mask.le m k)) = true) : RestOk k r := by
  rw [Bool.or_eq_true, Bool.and_eq_true] at hk
  rcases hk with hk | ⟨h1, h2⟩
  · exact .inl (noRest_iff.1 hk)
  · obtain ⟨h3, h4⟩ := h.head (by simpa using h1)
    exact .inr ⟨h3, h4.le h2⟩

include hG in
theorem stateLe_sound {s t : GS} {st : St} (h : stateLe G s t = true) (hs : Sim G U toks r s st) :
    Sim G U toks r t st := by
  obtain ⟨d, X, m⟩ := s
  obtain ⟨e, Y, k⟩ := t
  simp only [stateLe, Bool.and_eq_true] at h
  obtain ⟨u, hv, hu⟩ := hs.str
  exact ⟨(envEq_sound h.2).1 hs.env, ⟨u, hv, streamLe_sound hG h.1.1 hu⟩, RestOk.le hs.rest h.1.2⟩

theorem mergeS_sound {s t w : GS} {st : St} (h : mergeS s t = some w)
    (hs : Sim G U toks r s st ∨ Sim G U toks r t st) : Sim G U toks r w st := by
  obtain ⟨d, X, m⟩ := s
  obtain ⟨e, Y, k⟩ := t
  simp only [mergeS] at h
  cases hmk : Nat.beq m k with
  | true =>
    rw [hmk] at h
    have := Nat.eq_of_beq_eq_true hmk
    subst this
    simp only [cond_true] at h
    split at h
    · next Z hZ =>
      cases he : envEq d e with
      | false => rw [he] at h; simp at h
      | true =>
        rw [he] at h
        cases h
        rcases hs with hs | hs
        · obtain ⟨u, hv, hu⟩ := hs.str
          exact ⟨hs.env, ⟨u, hv, mergeX_sound hZ (.inl hu)⟩, hs.rest⟩
        · obtain ⟨u, hv, hu⟩ := hs.str
          exact ⟨(envEq_sound he).2 hs.env, ⟨u, hv, mergeX_sound hZ (.inr hu)⟩, hs.rest⟩
    · simp at h
  | false =>
    rw [hmk] at h
    simp only [cond_false] at h
    cases he : (!noRest m && !noRest k && streamEq X Y && envEq d e) with
    | false => rw [he] at h; simp at h
    | true =>
      rw [he] at h
      cases h
      simp only [Bool.and_eq_true, Bool.not_eq_true'] at he
      have := streamEq_eq he.1.2
      subst this
      rcases hs with hs | hs
      · obtain ⟨h1, h2⟩ := hs.rest.head he.1.1.1
        exact ⟨hs.env, hs.str, .inr ⟨h1, h2.left⟩⟩
      · obtain ⟨h1, h2⟩ := hs.rest.head he.1.1.2
        exact ⟨(envEq_sound he.2).2 hs.env, hs.str, .inr ⟨h1, h2.right⟩⟩

include hG in
theorem addState_sound {s : GS} {st : St} : ∀ {l : List GS}, (Sim G U toks r s st ∨ ⟦l⟧ st) →
    ⟦addState G s l⟧ st
  | [], h => by
    rcases h with h | ⟨t, ht, _⟩
    · exact ⟨s, by simp [addState], h⟩
    · simp at ht
  | t :: l, h => by
    simp only [addState]
    cases hle : stateLe G s t with
    | true =>
      simp only [cond_true]
      rcases h with h | h
      · exact ⟨t, by simp, stateLe_sound hG hle h⟩
      · exact h
    | false =>
      simp only [cond_false]
      split
      · next w hw =>
        rcases h with h | ⟨t', ht', h⟩
        · exact ⟨w, by simp, mergeS_sound hw (.inl h)⟩
        · rcases List.mem_cons.1 ht' with rfl | ht'
          · exact ⟨w, by simp, mergeS_sound hw (.inr h)⟩
          · exact ⟨t', by simp [ht'], h⟩
      · rcases h with h | ⟨t', ht', h⟩
        · obtain ⟨w, h1, h2⟩ := addState_sound (l := l) (.inl h)
          exact ⟨w, by simp [h1], h2⟩
        · rcases List.mem_cons.1 ht' with rfl | ht'
          · exact ⟨t', by simp, h⟩
          · obtain ⟨w, h1, h2⟩ := addState_sound (s := s) (l := l) (.inr ⟨t', ht', h⟩)
            exact ⟨w, by simp [h1], h2⟩

include hG in
theorem addStates_sound {st : St} : ∀ {q l : List GS}, (⟦q⟧ st ∨ ⟦l⟧ st) → ⟦addStates G q l⟧ st
  | [], l, h => by
    rcases h with ⟨t, ht, _⟩ | h
    · simp at ht
    · exact h
  | s :: q, l, h => by
    simp only [addStates]
    apply addStates_sound
    rcases h with ⟨t, ht, h⟩ | h
    · rcases List.mem_cons.1 ht with rfl | ht
      · exact .inr (addState_sound hG (.inl h))
      · exact .inl ⟨t, ht, h⟩
    · exact .inr (addState_sound hG (.inr h))

include hG in
theorem memLe_sound {s : GS} {st : St} (hs : Sim G U toks r s st) : ∀ {l : List GS}, memLe G s l = true → ⟦l⟧ st
  | [], h => by simp [memLe] at h
  | t :: l, h => by
    simp only [memLe, Bool.or_eq_true] at h
    rcases h with h | h
    · exact ⟨t, by simp, stateLe_sound hG h hs⟩
    · obtain ⟨w, h1, h2⟩ := memLe_sound hs h
      exact ⟨w, by simp [h1], h2⟩

theorem widen_sound {s : GS} {st : St} (hs : Sim G U toks r s st) : ∀ {l : List GS}, Sim G U toks r (widen s l) st
  | [] => hs
  | t :: l => by
    simp only [widen]
    split
    · next w hw => exact mergeS_sound hw (.inl hs)
    · exact widen_sound hs

include hG in
theorem fresh_sound {seen : List GS} {st : St} : ∀ {l : List GS}, ⟦l⟧ st → ⟦seen⟧ st ∨ ⟦fresh G seen l⟧ st
  | [], h => by obtain ⟨t, ht, _⟩ := h; simp at ht
  | s :: l, h => by
    simp only [fresh]
    obtain ⟨t, ht, h⟩ := h
    cases hm : memLe G s seen with
    | true =>
      simp only [cond_true]
      rcases List.mem_cons.1 ht with rfl | ht
      · exact .inl (memLe_sound hG h hm)
      · exact fresh_sound ⟨t, ht, h⟩
    | false =>
      simp only [cond_false]
      rcases List.mem_cons.1 ht with rfl | ht
      · exact .inr ⟨widen t seen, by simp, widen_sound h⟩
      · rcases fresh_sound (seen := seen) ⟨t, ht, h⟩ with h | ⟨w, h1, h2⟩
        · exact .inl h
        · exact .inr ⟨w, by simp [h1], h2⟩

theorem keepOnly_look (d : List (Var × GV)) (x : Var) (v : GV) : ∀ {e : List (Var × GV)},
    GS.look x (keepOnly d e) = some v → GS.look x e = some v
  | [], h => by simp [keepOnly, GS.look] at h
  | (y, w) :: e, h => by
    simp only [keepOnly] at h
    simp only [GS.look]
    cases hxy : Nat.beq x y with
    | true =>
      have := Nat.eq_of_beq_eq_true hxy
      subst this
      split at h
      · simpa only [GS.look, hxy, cond_true] using h
      · next hn =>
        exfalso
        have : ∀ e : List (Var × GV), GS.look x (keepOnly d e) = none := by
          intro e
          induction e with
          | nil => rfl
          | cons p e ih =>
            obtain ⟨z, g⟩ := p
            simp only [keepOnly]
            split
            · next hz =>
              simp only [GS.look, ih]
              cases hxz : Nat.beq x z with
              | true => rw [← Nat.eq_of_beq_eq_true hxz, hn] at hz; simp at hz
              | false => rfl
            · exact ih
        rw [this] at h
        simp at h
    | false =>
      split at h
      · simp only [GS.look, hxy, cond_false] at h
        exact keepOnly_look d x v h
      · exact keepOnly_look d x v h

theorem keepAll_sound {d : List (Var × GV)} {st : St} : ∀ {l : List GS}, ⟦l⟧ st → ⟦keepAll d l⟧ st
  | [], h => h
  | ⟨e, X, m⟩ :: l, h => by
    obtain ⟨t, ht, h⟩ := h
    simp only [keepAll]
    rcases List.mem_cons.1 ht with rfl | ht
    · exact ⟨⟨keepOnly d e, X, m⟩, by simp, fun x v hx => h.env x v (keepOnly_look d x v hx), h.str, h.rest⟩
    · obtain ⟨w, h1, h2⟩ := keepAll_sound (d := d) ⟨t, ht, h⟩
      exact ⟨w, by simp [h1], h2⟩

theorem setAll_sound {x : Var} {g : Option GV} {v : Val} (hv : ORel U g v) {st : St} : ∀ {l : List GS}, ⟦l⟧ st →
    ⟦setAll x g l⟧ { st with env := st.env.set x v }
  | [], h => by obtain ⟨t, ht, _⟩ := h; simp at ht
  | s :: l, h => by
    obtain ⟨t, ht, h⟩ := h
    simp only [setAll]
    rcases List.mem_cons.1 ht with rfl | ht
    · exact ⟨_, by simp, h.set x g hv⟩
    · obtain ⟨w, h1, h2⟩ := setAll_sound (x := x) hv ⟨t, ht, h⟩
      exact ⟨w, by simp [h1], h2⟩

/-- The way a command ends is described. -/
def FlowIn (G : Tables) (U : Unicode) (toks : List Token) (r : List Nat) (o : Outs) : Flow × St → Prop
  | (.norm, st) => In G U toks r o.norm st
  | (.brk, st) => In G U toks r o.brk st
  | (.ret _, st) => In G U toks r o.ret st

/-- Calls succeed as described. -/
def CallOk (G : Tables) (U : Unicode) (toks : List Token) (C : Ctx) (call : Call) : Prop :=
  ∀ f args X m l, call f args X m = .ok l → ∀ vs ps u r, List.Forall₂ (ORel U) args vs →
    view toks ps.pos = u ++ r → M G X u → RestOk m r →
    Good (fun (x : Val × PS) => ∃ p ∈ l, ∃ u', view toks x.2.pos = u' ++ r ∧ M G p.1 u' ∧ RestOk p.2 r)
      (C.call f vs ps)

include hU in
theorem evalA_sound {s : GS} {st : St} (h : Sim G U toks r s st) (a : Atom) :
    Good (ORel U (evalA s a)) (Interp.evalAtom st.env a) := by
  cases a with
  | var x =>
    simp only [evalA, Interp.evalAtom, Good]
    cases hx : GS.look x s.env with
    | none => trivial
    | some g => exact h.env x g hx
  | bool b => exact rfl
  | nat n => exact rfl
  | notVar x =>
    simp only [evalA, Interp.evalAtom]
    split
    · next b hb =>
      have := h.env x _ hb
      simp only [GVRel] at this
      rw [this]
      exact rfl
    · split
      · trivial
      · exact stuck_good
  | kws ks => exact rfl
  | strEq x k =>
    simp only [evalA, Interp.evalAtom]
    split
    · next m hm =>
      have := h.env x _ hm
      simp only [GVRel] at this
      obtain ⟨w, hw, hwm⟩ := this
      rw [hw]
      show ORel U _ _
      have hb : (U.upper w == k.lit) = (litTok w).inKws U [k] := by
        unfold Token.inKws Token.upper litTok; simp
      cases h1 : Nat.beq (m &&& upF [k]) 0 with
      | true =>
        show _ = _
        cases hv : (U.upper w == k.lit) with
        | true => rfl
        | false => rw [hb] at hv; exact (and_beq_zero h1 hwm (inKws_false hU hv)).elim
      | false =>
        cases h2 : Nat.beq (m &&& upT [k]) 0 with
        | true =>
          show _ = _
          cases hv : (U.upper w == k.lit) with
          | false => rfl
          | true => rw [hb] at hv; exact (and_beq_zero h2 hwm (inKws_true hU hv)).elim
        | false => trivial
    · split
      · trivial
      · exact stuck_good

include hU in
theorem evalAs_sound {s : GS} {st : St} (h : Sim G U toks r s st) : ∀ as : List Atom,
    Good (List.Forall₂ (ORel U) (as.map (evalA s))) (Interp.evalAtoms st.env as)
  | [] => .nil
  | a :: as => by
    simp only [Interp.evalAtoms, List.map_cons]
    refine (evalA_sound hU h a).bind fun v hv => ?_
    refine (evalAs_sound h as).bind fun vs hvs => ?_
    exact .cons hv hvs

theorem attach_good (ps : PS) (n : Node) : Good (fun _ => True) (attachComments toks ps n) := by
  unfold attachComments
  split
  · trivial
  · show Panic.index ≠ Panic.emptyLiteral
    decide

include ok in
theorem following_sound {st : St} {s : GS} (h : Sim G U toks r s st) (hG : TOk G) (hf : s.following G = true)
    {u : List Nat} (hv : view toks st.ps.pos = u ++ r) (hu : M G s.X u) : ∃ c d w, u ++ r = c :: d :: w := by
  unfold GS.following at hf
  cases hn : noRest s.m with
  | true =>
    rw [hn] at hf
    simp only [cond_true] at hf
    split at hf
    · next a X hX =>
      rw [hX] at hu
      obtain ⟨c, w, rfl, _, _, hw⟩ := M_T hu
      cases w with
      | nil => rw [(first_sound hG hw).1 rfl] at hf; simp at hf
      | cons d w => exact ⟨c, d, w ++ r, rfl⟩
    · simp at hf
  | false =>
    rw [hn] at hf
    simp only [cond_false, Bool.or_eq_true, Bool.not_eq_true', Bool.or_eq_false_iff] at hf
    obtain ⟨h1, h2⟩ := h.rest.head hn
    rcases hf with hf | hf
    · cases u with
      | nil => rw [(first_sound hG hu).1 rfl] at hf; simp at hf
      | cons c w =>
        cases hwr : w ++ r with
        | nil => rw [List.append_eq_nil_iff] at hwr; exact (h1 hwr.2).elim
        | cons d w' => exact ⟨c, d, w', by rw [List.cons_append, hwr]⟩
    · match r, h1, h2, hv with
      | [], h1, _, _ => exact (h1 rfl).elim
      | [d], _, hm, hv =>
        have hm : s.m.has d = true := hm
        rcases view_last ok hv with rfl | rfl
        · rw [hf.1] at hm; simp at hm
        · rw [hf.2] at hm; simp at hm
      | d :: e :: r', _, _, _ =>
        cases u with
        | nil => exact ⟨d, e, r', rfl⟩
        | cons c u =>
          cases u with
          | nil => exact ⟨c, d, e :: r', rfl⟩
          | cons c' u => exact ⟨c, c', u ++ d :: e :: r', rfl⟩

include ok in
theorem construct_good {st : St} {s : GS} (h : Sim G U toks r s st) (hG : TOk G) (nt : NodeType)
    (hc : (tyEq nt .Unknown && !s.following G || !s.current G) = false) :
    Good (fun _ => True) (construct U toks st.ps nt) := by
  rw [Bool.or_eq_false_iff] at hc
  obtain ⟨t, ⟨ht, hnc⟩, _⟩ := first_cls hG ok h (by simpa using hc.2)
  have hg := getToken_at ok ht hnc
  unfold construct
  rw [hg]
  simp only
  split
  · exact attach_good _ _
  · split
    · next hnt =>
      subst hnt
      have hcl : Good (fun _ => True) (classify U toks st.ps t) := by
        unfold classify
        repeat' split
        all_goals try trivial
        · next e he =>
          exfalso
          obtain ⟨u, hv, hu⟩ := h.str
          have h2 := following_sound ok h hG (by
            have := hc.1
            rw [tyEq_iff.2 rfl, Bool.true_and] at this
            simpa using this) hv hu
          obtain ⟨c, d, w, h2⟩ := h2
          obtain ⟨t1, ht1, hnc1, _⟩ := view_get ok (pos := st.ps.pos) (k := 1) (c := d) (by rw [hv, h2]; rfl)
          rw [getToken_at ok ht1 hnc1] at he
          cases he
        · next p hp =>
          have : p = .index := by
            unfold getToken at hp
            split at hp
            · unfold tokAt at hp; split at hp <;> cases hp; rfl
            · cases hp
            · next hq =>
              cases hp
              unfold getOffsetIndex at hq
              repeat' split at hq
              all_goals first | (cases hq; done) | (cases hq; rfl)
            · cases hp
          subst this
          show Panic.index ≠ Panic.emptyLiteral
          decide
      split
      · exact attach_good _ _
      · next e he => rw [he] at hcl; exact hcl.elim
      · next p hp => rw [hp] at hcl; exact hcl
      · trivial
    · exact attach_good _ _

/-- The value and the state after an expression are described. -/
def ExpOk (G : Tables) (U : Unicode) (toks : List Token) (r : List Nat) (l : List (Option GV × GS)) :
    Val × St → Prop := fun x => ∃ g s', (g, s') ∈ l ∧ ORel U g x.1 ∧ Sim G U toks r s' x.2

include hG hU ok in
theorem evalE_sound {C : Ctx} (hCU : C.U = U) (hCt : C.toks = toks) {call : Call} (hcall : CallOk G U toks C call)
    {s : GS} {st : St} (h : Sim G U toks r s st) {e : Exp} {l : List (Option GV × GS)}
    (hl : evalE G call s e = .ok l) : Good (ExpOk G U toks r l) (Interp.evalExp C st e) := by
  cases e with
  | var x =>
    simp only [evalE, Except.ok.injEq] at hl
    subst hl
    refine ⟨_, s, by simp; rfl, ?_, h⟩
    cases hx : GS.look x s.env with
    | none => trivial
    | some g => exact h.env x g hx
  | construct nt =>
    simp only [evalE] at hl
    cases hc : (tyEq nt .Unknown && !s.following G || !s.current G) with
    | true => rw [hc] at hl; simp at hl
    | false =>
      rw [hc] at hl
      cases hl
      simp only [Interp.evalExp, hCU, hCt]
      refine (construct_good ok h hG nt hc).bind fun n _ => ?_
      exact ⟨none, s, by simp, trivial, h⟩
  | empty nt =>
    simp only [evalE, Except.ok.injEq] at hl
    subst hl
    exact ⟨none, s, by simp, trivial, h⟩
  | call f args =>
    simp only [evalE] at hl
    split at hl
    · simp at hl
    · next q hq =>
      cases hl
      simp only [Interp.evalExp]
      refine (evalAs_sound hU h args).bind fun vs hvs => ?_
      obtain ⟨u, hv, hu⟩ := h.str
      refine (hcall _ _ _ _ _ hq vs st.ps u r hvs hv hu h.rest).bind ?_
      rintro ⟨v, ps⟩ ⟨p, hp, u', h1, h2, h3⟩
      exact ⟨none, s.withX p.1 p.2, List.mem_map.2 ⟨p, hp, rfl⟩, trivial, h.env, ⟨u', h1, h2⟩, h3⟩
  | nilVec =>
    simp only [evalE, Except.ok.injEq] at hl
    subst hl
    exact ⟨none, s, by simp, trivial, h⟩
  | pop x =>
    simp only [evalE, Except.ok.injEq] at hl
    subst hl
    simp only [Interp.evalExp]
    split
    · split
      · exact ⟨none, s.set x none, by simp, trivial, h.set x none trivial⟩
      · show Panic.emptyPop ≠ Panic.emptyLiteral
        decide
    · exact stuck_good
  | prec o =>
    simp only [evalE] at hl
    split at hl
    · simp at hl
    · next k hk =>
      split at hl
      · simp at hl
      · next q hq =>
        cases hl
        obtain ⟨p, s', h1, h2, h3⟩ := precAt_sound hG hU ok h hq
        simp only [Interp.evalExp, evalO_sound h hk, hCU, hCt]
        show Good _ (do let p ← getPrecedence U toks st.ps k; Out.ok (Val.nat p, st))
        rw [h1]
        exact ⟨some (.nat p), s', List.mem_map.2 ⟨_, h2, rfl⟩, rfl, h3⟩
  | natLit n =>
    simp only [evalE, Except.ok.injEq] at hl
    subst hl
    exact ⟨some (.nat n), s, by simp, rfl, h⟩
  | boolLit b =>
    simp only [evalE, Except.ok.injEq] at hl
    subst hl
    exact ⟨some (.bool b), s, by simp, rfl, h⟩
  | kws ks =>
    simp only [evalE, Except.ok.injEq] at hl
    subst hl
    exact ⟨some (.kws ks), s, by simp, rfl, h⟩
  | upperLit o =>
    simp only [evalE] at hl
    split at hl
    · cases hcur : s.current G with
      | false => rw [hcur] at hl; simp at hl
      | true =>
      rw [hcur] at hl
      cases hl
      obtain ⟨t, ⟨ht, hnc⟩, htc⟩ := first_cls hG ok h hcur
      have hg := getToken_at ok ht hnc
      have ho : Interp.offTok C st (.lit 0) = .ok t := by
        unfold Interp.offTok
        simp only [Interp.evalOff, hCt]
        exact hg
      simp only [Interp.evalExp, ho, hCU]
      exact ⟨some (.str (firstOf G s.X s.m)), s, by simp, ⟨t.literal, rfl, htc⟩, h⟩
    · simp at hl
  | cond c =>
    simp only [evalE] at hl
    split at hl
    · simp at hl
    · next q hq =>
      cases hl
      simp only [Interp.evalExp]
      refine (evalC_sound hG hU ok hCU hCt h hq).bind fun b hb => ?_
      obtain ⟨s', h1, h2⟩ := hb
      exact ⟨some (.bool b), s', List.mem_map.2 ⟨_, h1, rfl⟩, rfl, h2⟩

theorem mem_putAll {f : Option GV → GS → GS} {g : Option GV} {s : GS} : ∀ {l : List (Option GV × GS)} {q : List GS},
    (g, s) ∈ l → f g s ∈ evalAll.putAll f l q
  | [], _, h => by simp at h
  | (g', s') :: l, q, h => by
    simp only [evalAll.putAll]
    rcases List.mem_cons.1 h with h | h
    · cases h; simp
    · simp [mem_putAll h]

theorem putAll_rest {f : Option GV → GS → GS} {t : GS} : ∀ {l : List (Option GV × GS)} {q : List GS},
    t ∈ q → t ∈ evalAll.putAll f l q
  | [], _, h => h
  | (g', s') :: l, q, h => by
    simp only [evalAll.putAll]
    simp [putAll_rest h]

include hG hU ok in
theorem evalAll_sound {C : Ctx} (hCU : C.U = U) (hCt : C.toks = toks) {call : Call} (hcall : CallOk G U toks C call)
    {e : Exp} {f : Option GV → GS → GS} {st : St} : ∀ {S q : List GS}, ⟦S⟧ st → evalAll G call e f S = .ok q →
    Good (fun (x : Val × St) => ∃ g s', f g s' ∈ q ∧ ORel U g x.1 ∧ Sim G U toks r s' x.2) (Interp.evalExp C st e)
  | [], _, h, _ => by obtain ⟨t, ht, _⟩ := h; simp at ht
  | s :: S, q, h, hq => by
    simp only [evalAll] at hq
    split at hq
    · simp at hq
    · next l hl =>
      split at hq
      · simp at hq
      · next q' hq' =>
        cases hq
        obtain ⟨t, ht, h⟩ := h
        rcases List.mem_cons.1 ht with rfl | ht
        · refine (evalE_sound hG hU ok hCU hCt hcall h hl).imp ?_
          rintro x ⟨g, s', h1, h2, h3⟩
          exact ⟨g, s', mem_putAll h1, h2, h3⟩
        · refine (evalAll_sound hCU hCt hcall ⟨t, ht, h⟩ hq').imp ?_
          rintro x ⟨g, s', h1, h2, h3⟩
          exact ⟨g, s', putAll_rest h1, h2, h3⟩

theorem sortAns_mem : ∀ {l : List (Bool × GS)} {q : List GS × List GS},
    (∀ s, (true, s) ∈ l → s ∈ (sortAns l q).1) ∧ (∀ s, (false, s) ∈ l → s ∈ (sortAns l q).2) ∧
    (∀ s ∈ q.1, s ∈ (sortAns l q).1) ∧ (∀ s ∈ q.2, s ∈ (sortAns l q).2)
  | [], q => by simp [sortAns]
  | (true, t) :: l, q => by
    have ih := @sortAns_mem l q
    simp only [sortAns, List.mem_cons, Prod.mk.injEq, true_and]
    refine ⟨?_, ?_, ?_, ih.2.2.2⟩
    · rintro s (rfl | h)
      · exact .inl rfl
      · exact .inr (ih.1 s h)
    · rintro s (h | h)
      · simp at h
      · exact ih.2.1 s h
    · intro s h; exact .inr (ih.2.2.1 s h)
  | (false, t) :: l, q => by
    have ih := @sortAns_mem l q
    simp only [sortAns, List.mem_cons, Prod.mk.injEq, true_and]
    refine ⟨?_, ?_, ih.2.2.1, ?_⟩
    · rintro s (h | h)
      · simp at h
      · exact ih.1 s h
    · rintro s (rfl | h)
      · exact .inl rfl
      · exact .inr (ih.2.1 s h)
    · intro s h; exact .inr (ih.2.2.2 s h)

include hG hU ok in
theorem evalCs_sound {C : Ctx} (hCU : C.U = U) (hCt : C.toks = toks) {c : Cond} {st : St} :
    ∀ {S : List GS} {q : List GS × List GS}, ⟦S⟧ st → evalCs G c S = .ok q →
    Good (fun b => bif b then ⟦q.1⟧ st else ⟦q.2⟧ st) (Interp.evalCond C st c)
  | [], _, h, _ => by obtain ⟨t, ht, _⟩ := h; simp at ht
  | s :: S, q, h, hq => by
    simp only [evalCs] at hq
    split at hq
    · simp at hq
    · next l hl =>
      split at hq
      · simp at hq
      · next q' hq' =>
        cases hq
        have hm := @sortAns_mem l q'
        obtain ⟨t, ht, h⟩ := h
        rcases List.mem_cons.1 ht with rfl | ht
        · refine (evalC_sound hG hU ok hCU hCt h hl).imp ?_
          rintro b ⟨s', h1, h2⟩
          cases b
          · exact ⟨s', hm.2.1 _ h1, h2⟩
          · exact ⟨s', hm.1 _ h1, h2⟩
        · refine (evalCs_sound hCU hCt ⟨t, ht, h⟩ hq').imp ?_
          intro b hb
          cases b
          · obtain ⟨s', h1, h2⟩ := hb; exact ⟨s', hm.2.2.2 _ h1, h2⟩
          · obtain ⟨s', h1, h2⟩ := hb; exact ⟨s', hm.2.2.1 _ h1, h2⟩

theorem tails_sound {d : List (Var × GV)} {m : Mask} {X : List GSym} {q : List GS} :
    ∀ {hs : List (List GSym)} {l : List GS}, nextAll.tails G d m X q hs = .ok l →
    (∀ t ∈ q, t ∈ l) ∧ ∀ Y ∈ hs, ∃ a Z, Y = .T a :: Z ∧ (noRest m && !nonempty G Z) = false ∧ (⟨d, Z, m⟩ : GS) ∈ l
  | [], l, h => by simp only [nextAll.tails, Except.ok.injEq] at h; subst h; exact ⟨fun _ h => h, by simp⟩
  | [] :: hs, l, h => by simp [nextAll.tails] at h
  | (.N n a :: Y) :: hs, l, h => by simp [nextAll.tails] at h
  | (.T a :: Y) :: hs, l, h => by
    simp only [nextAll.tails] at h
    cases h0 : (noRest m && !nonempty G Y) with
    | true => rw [h0] at h; simp at h
    | false =>
    rw [h0] at h
    simp only [cond_false] at h
    split at h
    · simp at h
    · next l' hl' =>
      cases h
      have ih := tails_sound hl'
      refine ⟨fun t ht => by simp [ih.1 t ht], ?_⟩
      intro Z hZ
      rcases List.mem_cons.1 hZ with rfl | hZ
      · exact ⟨a, Y, rfl, h0, by simp⟩
      · obtain ⟨b, W, h1, h3, h2⟩ := ih.2 Z hZ
        exact ⟨b, W, h1, h3, by simp [h2]⟩

include hG ok in
theorem nextAll_sound {st : St} : ∀ {S q : List GS}, ⟦S⟧ st → nextAll G S = .ok q →
    ∃ ps, nextToken toks st.ps = .ok ps ∧ ⟦q⟧ { st with ps := ps }
  | [], _, h, _ => by obtain ⟨t, ht, _⟩ := h; simp at ht
  | ⟨d, X, m⟩ :: S, q, h, hq => by
    simp only [nextAll] at hq
    split at hq
    · simp at hq
    · next hs hhs =>
      split at hq
      · simp at hq
      · next q' hq' =>
        have ht := tails_sound hq
        obtain ⟨t, htm, h⟩ := h
        rcases List.mem_cons.1 htm with rfl | htm
        · obtain ⟨u, hv, hu⟩ := h.str
          obtain ⟨Y, hY, h1, _⟩ := heads_sound hG hhs hu
          obtain ⟨a, Z, rfl, h3, h2⟩ := ht.2 Y hY
          obtain ⟨c, w, rfl, _, _, hw⟩ := M_T h1
          obtain ⟨e, w', hwr, _⟩ := current_sound hG hw h.rest h3
          obtain ⟨ps, hps, hpos⟩ := next_at ok (ps := st.ps) (c := c) (d := e) (w := w')
            (by rw [hv, List.cons_append, hwr])
          refine ⟨ps, hps, _, h2, h.env, ⟨w, ?_, hw⟩, h.rest⟩
          show view toks ps.pos = w ++ r
          rw [hpos]
          exact view_succ ok (by rw [hv]; rfl)
        · obtain ⟨ps, h1, s', h2, h3⟩ := nextAll_sound ⟨t, htm, h⟩ hq'
          exact ⟨ps, h1, s', ht.1 _ h2, h3⟩

/-- Inclusion of results. -/
def OutsLe (G : Tables) (U : Unicode) (toks : List Token) (r : List Nat) (o p : Outs) : Prop :=
  ∀ st, (In G U toks r o.norm st → In G U toks r p.norm st) ∧ (In G U toks r o.ret st → In G U toks r p.ret st)

include hG in
/-- The states visited by a loop. -/
theorem fixLoop_sound {body : List GS → R Outs} {exit : Bool} {d : List (Var × GV)}
    {step : St → Out (Flow × St) → Prop}
    (hb : ∀ S o, body S = .ok o → ∀ st, ⟦S⟧ st → ∀ x, step st x → Good (FlowIn G U toks r o) x) :
    ∀ {n : Nat} {todo seen : List GS} {out res : Outs}, fixLoop G body exit d n todo seen out = .ok res →
    OutsLe G U toks r out res ∧ ∃ P : St → Prop, (∀ st, ⟦todo⟧ st → P st) ∧
      (exit = true → ∀ st, P st → ⟦res.norm⟧ st) ∧
      ∀ st, P st → ∀ x, step st x → Good (fun y => match y.1 with
        | .norm => P y.2 ∨ ⟦seen⟧ y.2
        | .brk => ⟦res.norm⟧ y.2
        | .ret _ => ⟦res.ret⟧ y.2) x
  | 0, _, _, _, _, h => by simp [fixLoop] at h
  | n + 1, [], seen, out, res, h => by
    simp only [fixLoop, Except.ok.injEq] at h
    subst h
    refine ⟨fun st => ⟨id, id⟩, fun _ => False, ?_, ?_, ?_⟩
    · rintro st ⟨t, ht, _⟩; simp at ht
    · intro _ st h; exact h.elim
    · intro st h; exact h.elim
  | n + 1, s :: todo, seen, out, res, h => by
    simp only [fixLoop] at h
    split at h
    · simp at h
    · next o ho =>
      obtain ⟨h1, P, h2, h3, h4⟩ := fixLoop_sound hb h
      have hn : ∀ st, ⟦out.norm⟧ st → ⟦res.norm⟧ st := by
        intro st hst
        apply (h1 st).1
        apply addStates_sound hG
        refine .inr ?_
        cases exit with
        | true => exact addStates_sound hG (.inr hst)
        | false => exact hst
      refine ⟨fun st => ⟨hn st, fun hst => (h1 st).2 (addStates_sound hG (.inr hst))⟩,
        fun st => ⟦s :: todo⟧ st ∨ P st, fun st hst => .inl hst, ?_, ?_⟩
      · rintro rfl st (hst | hst)
        · apply (h1 st).1
          exact addStates_sound hG (.inr (addStates_sound hG (.inl hst)))
        · exact h3 rfl st hst
      · rintro st (hst | hst) x hx
        · refine (hb _ _ ho st hst x hx).imp ?_
          rintro ⟨fl, st'⟩ hfl
          cases fl with
          | norm =>
            rcases fresh_sound hG (keepAll_sound (d := d) hfl) (seen := (s :: todo) ++ seen) with h5 | h5
            · rcases In.of_append h5 with h5 | h5
              · exact .inl (.inl h5)
              · exact .inr h5
            · exact .inl (.inr (h2 _ (addStates_sound hG (.inl h5))))
          | brk => exact (h1 st').1 (addStates_sound hG (.inl (keepAll_sound hfl)))
          | ret v => exact (h1 st').2 (addStates_sound hG (.inl hfl))
        · refine (h4 st hst x hx).imp ?_
          rintro ⟨fl, st'⟩ hfl
          cases fl with
          | norm =>
            rcases hfl with h5 | h5
            · exact .inl (.inr h5)
            · rcases In.of_append h5 with h5 | h5
              · exact .inl (.inl h5)
              · exact .inr h5
          | brk => exact hfl
          | ret v => exact hfl

theorem In.nil {st : St} (h : ⟦[]⟧ st) : False := by obtain ⟨t, ht, _⟩ := h; simp at ht

theorem iterate_sound {f : St → Out (Flow × St)} {o : Outs} {P : St → Prop}
    (h : ∀ st, P st → Good (fun (y : Flow × St) => match y.1 with
        | .norm => P y.2 ∨ ⟦[]⟧ y.2
        | .brk => ⟦o.norm⟧ y.2
        | .ret _ => ⟦o.ret⟧ y.2) (f st)) :
    ∀ (n : Nat) (st : St), P st → Good (FlowIn G U toks r o) (Interp.iterate f n st)
  | 0, _, _ => trivial
  | n + 1, st, hst => by
    have h1 := h st hst
    simp only [Interp.iterate]
    cases hf : f st with
    | ok y =>
      rw [hf] at h1
      obtain ⟨fl, st'⟩ := y
      cases fl with
      | norm =>
        rcases h1 with h1 | h1
        · exact iterate_sound h n st' h1
        · exact h1.nil.elim
      | brk => exact h1
      | ret v => exact h1
    | err e => rw [hf] at h1; exact h1
    | panic p => rw [hf] at h1; exact h1
    | timeout => trivial

theorem drain_sound {f : St → Out (Flow × St)} {x : Var} {o : Outs} {P : St → Prop}
    (hexit : ∀ st, P st → ⟦o.norm⟧ st)
    (h : ∀ st, P st → ∀ n, Good (fun (y : Flow × St) => match y.1 with
        | .norm => P y.2 ∨ ⟦[]⟧ y.2
        | .brk => ⟦o.norm⟧ y.2
        | .ret _ => ⟦o.ret⟧ y.2) (f { st with env := st.env.set x (.node n) })) :
    ∀ (ns : List Node) (st : St), P st → Good (FlowIn G U toks r o) (Interp.drainLoop f x ns st)
  | [], st, hst => hexit st hst
  | n :: ns, st, hst => by
    have h1 := h st hst n
    simp only [Interp.drainLoop]
    cases hf : f { st with env := st.env.set x (.node n) } with
    | ok y =>
      rw [hf] at h1
      obtain ⟨fl, st'⟩ := y
      cases fl with
      | norm =>
        rcases h1 with h1 | h1
        · exact drain_sound hexit h ns st' h1
        · exact h1.nil.elim
      | brk => exact h1
      | ret v => exact h1
    | err e => rw [hf] at h1; exact h1
    | panic p => rw [hf] at h1; exact h1
    | timeout => trivial

include hG in
theorem unroll_sound {body : List GS → R Outs} {f : St → Out (Flow × St)}
    (hb : ∀ S o, body S = .ok o → ∀ st, ⟦S⟧ st → Good (FlowIn G U toks r o) (f st)) {x : Var} {bounded : Bool}
    {d : List (Var × GV)} {done : St → Out (Flow × St)}
    (hd : done = if bounded then (fun s => .ok (.norm, s)) else fun _ => .timeout) :
    ∀ {n k i : Nat} {S : List GS} {o : Outs} {st : St}, (bounded = true → k = n) →
      unroll G body x bounded d n i S = .ok o → ⟦S⟧ st →
      Good (FlowIn G U toks r o) (Interp.scanLoop f x done k i st)
  | n, k, i, [], o, st, _, _, h => h.nil.elim
  | 0, k, i, s :: S, o, st, hk, ho, h => by
    simp only [unroll] at ho
    cases bounded with
    | false => simp at ho
    | true =>
      cases ho
      rw [hk rfl]
      simp only [Interp.scanLoop, hd]
      exact h
  | n + 1, 0, i, s :: S, o, st, hk, ho, h => by
    cases bounded with
    | true => have := hk rfl; omega
    | false => simp only [Interp.scanLoop, hd]; trivial
  | n + 1, k + 1, i, s :: S, o, st, hk, ho, h => by
    simp only [unroll] at ho
    split at ho
    · simp at ho
    · next q hq =>
      split at ho
      · simp at ho
      · next p hp =>
        cases ho
        have h1 := hb _ _ hq _ (setAll_sound (x := x) (g := some (.nat i)) (v := .nat i) rfl h)
        simp only [Interp.scanLoop]
        cases hf : f { st with env := st.env.set x (.nat i) } with
        | ok y =>
          rw [hf] at h1
          obtain ⟨fl, st'⟩ := y
          cases fl with
          | norm =>
            refine (unroll_sound hb hd (fun hbd => by have := hk hbd; omega) hp h1).imp ?_
            rintro ⟨fl, st''⟩ hfl
            cases fl with
            | norm => exact addStates_sound hG (.inr hfl)
            | brk =>
              exfalso
              have : p.brk = [] := by
                revert hp
                cases n <;> cases q.norm <;> simp only [unroll]
                · intro hp; cases hp; rfl
                · cases bounded <;> intro hp <;> cases hp; rfl
                · intro hp; cases hp; rfl
                · intro hp
                  split at hp
                  · simp at hp
                  · split at hp
                    · simp at hp
                    · cases hp; rfl
              simp only [FlowIn, this] at hfl
              exact hfl.nil
            | ret v => exact hfl.append_right
          | brk => exact addStates_sound hG (.inl (keepAll_sound h1))
          | ret v => exact h1.append_left
        | err e => rw [hf] at h1; exact h1
        | panic p => rw [hf] at h1; exact h1
        | timeout => trivial

theorem eachState_sound {f : GS → R Outs} {x : Out (Flow × St)} {st : St}
    (hf : ∀ s o, f s = .ok o → Sim G U toks r s st → Good (FlowIn G U toks r o) x) :
    ∀ {S : List GS} {o : Outs}, eachState f S = .ok o → ⟦S⟧ st → Good (FlowIn G U toks r o) x
  | [], _, _, h => h.nil.elim
  | s :: S, o, ho, h => by
    simp only [eachState] at ho
    split at ho
    · simp at ho
    · next o1 ho1 =>
      split at ho
      · simp at ho
      · next o2 ho2 =>
        cases ho
        obtain ⟨t, ht, h⟩ := h
        rcases List.mem_cons.1 ht with rfl | ht
        · refine (hf _ _ ho1 h).imp ?_
          rintro ⟨fl, st'⟩ hfl
          cases fl <;> exact hfl.append_left
        · refine (eachState_sound hf ho2 ⟨t, ht, h⟩).imp ?_
          rintro ⟨fl, st'⟩ hfl
          cases fl <;> exact hfl.append_right

include hG hU ok in
/-- Commands. -/
theorem exec_sound {C : Ctx} (hCU : C.U = U) (hCt : C.toks = toks) {call : Call} (hcall : CallOk G U toks C call) :
    ∀ {c : Cmd} {S : List GS} {o : Outs} {st : St}, exec G call c S = .ok o → ⟦S⟧ st →
      Good (FlowIn G U toks r o) (Interp.exec C c st) := by
  intro c
  induction c with
  | skip =>
    intro S o st ho h
    simp only [exec, Except.ok.injEq] at ho
    subst ho
    exact h
  | seq a b iha ihb =>
    intro S o st ho h
    simp only [exec] at ho
    split at ho
    · simp at ho
    · next o1 ho1 =>
      have h1 := iha ho1 h
      simp only [Interp.exec]
      cases hx : Interp.exec C a st with
      | ok y =>
        rw [hx] at h1
        obtain ⟨fl, st'⟩ := y
        cases fl with
        | norm =>
          have h2 := addStates_sound hG (q := o1.norm) (l := []) (.inl h1)
          split at ho
          · next he => rw [he] at h2; exact h2.nil.elim
          · split at ho
            · simp at ho
            · next p hp =>
              cases ho
              refine (ihb hp h2).imp ?_
              rintro ⟨fl, st''⟩ hfl
              cases fl with
              | norm => exact hfl
              | brk => exact hfl.append_right
              | ret v => exact hfl.append_right
        | brk =>
          split at ho
          · cases ho; exact h1
          · split at ho
            · simp at ho
            · cases ho; exact h1.append_left
        | ret v =>
          split at ho
          · cases ho; exact h1
          · split at ho
            · simp at ho
            · cases ho; exact h1.append_left
      | err e => rw [hx] at h1; exact h1
      | panic p => rw [hx] at h1; exact h1
      | timeout => trivial
  | next =>
    intro S o st ho h
    simp only [exec] at ho
    split at ho
    · simp at ho
    · next l hl =>
      cases ho
      obtain ⟨ps, h1, h2⟩ := nextAll_sound hG ok h hl
      simp only [Interp.exec, hCt, h1]
      exact h2
  | set x e =>
    intro S o st ho h
    simp only [exec] at ho
    split at ho
    · simp at ho
    · next l hl =>
      cases ho
      simp only [Interp.exec]
      refine (evalAll_sound hG hU ok hCU hCt hcall h hl).bind ?_
      rintro ⟨v, s'⟩ ⟨g, s1, h1, h2, h3⟩
      exact ⟨_, h1, h3.set x g h2⟩
  | push x k e =>
    intro S o st ho h
    simp only [exec] at ho
    split at ho
    · simp at ho
    · next l hl =>
      cases ho
      simp only [Interp.exec]
      refine (evalAll_sound hG hU ok hCU hCt hcall h hl).bind ?_
      rintro ⟨v, s'⟩ ⟨g, s1, h1, h2, h3⟩
      show Good _ (match s'.env x, v with
        | .node n, .node c => .ok (Flow.norm, { s' with env := s'.env.set x (.node (n.pushNode k c)) })
        | _, _ => .panic .stuck)
      split
      · exact ⟨_, h1, h3.set x none trivial⟩
      · exact stuck_good
  | pushVec x k e =>
    intro S o st ho h
    simp only [exec] at ho
    split at ho
    · simp at ho
    · next l hl =>
      cases ho
      simp only [Interp.exec]
      refine (evalAll_sound hG hU ok hCU hCt hcall h hl).bind ?_
      rintro ⟨v, s'⟩ ⟨g, s1, h1, h2, h3⟩
      show Good _ (match s'.env x, v with
        | .node n, .vec cs => .ok (Flow.norm, { s' with env := s'.env.set x (.node (n.pushVec k cs)) })
        | _, _ => .panic .stuck)
      split
      · exact ⟨_, h1, h3.set x none trivial⟩
      · exact stuck_good
  | append x e =>
    intro S o st ho h
    simp only [exec] at ho
    split at ho
    · simp at ho
    · next l hl =>
      cases ho
      simp only [Interp.exec]
      refine (evalAll_sound hG hU ok hCU hCt hcall h hl).bind ?_
      rintro ⟨v, s'⟩ ⟨g, s1, h1, h2, h3⟩
      show Good _ (match s'.env x, v with
        | .vec ns, .node c => .ok (Flow.norm, { s' with env := s'.env.set x (.vec (ns ++ [c])) })
        | _, _ => .panic .stuck)
      split
      · exact ⟨_, h1, h3.set x none trivial⟩
      · exact stuck_good
  | setType x nt =>
    intro S o st ho h
    simp only [exec, Except.ok.injEq] at ho
    subst ho
    simp only [Interp.exec]
    split
    · exact setAll_sound (g := none) trivial h
    · exact stuck_good
  | ite c a b iha ihb =>
    intro S o st ho h
    simp only [exec] at ho
    have key : ∀ {q : List GS × List GS}, evalCs G c S = .ok q →
        (∀ {st : St}, ⟦q.1⟧ st → Good (FlowIn G U toks r o) (Interp.exec C a st)) →
        (∀ {st : St}, ⟦q.2⟧ st → Good (FlowIn G U toks r o) (Interp.exec C b st)) →
        Good (FlowIn G U toks r o) (Interp.exec C (.ite c a b) st) := by
      intro q hq ha hb
      have h1 := evalCs_sound hG hU ok hCU hCt h hq
      simp only [Interp.exec]
      cases hx : Interp.evalCond C st c with
      | ok y =>
        rw [hx] at h1
        cases y with
        | true => exact ha h1
        | false => exact hb h1
      | err e => rw [hx] at h1; exact h1
      | panic p => rw [hx] at h1; exact h1
      | timeout => trivial
    split at ho
    · simp at ho
    · next F hq => exact key hq (fun h => h.nil.elim) (fun h => ihb ho h)
    · next hq => exact key hq (fun h => iha ho h) (fun h => h.nil.elim)
    · next T F _ _ hq =>
      split at ho
      · simp at ho
      · next o1 ho1 =>
        split at ho
        · simp at ho
        · next o2 ho2 =>
          cases ho
          refine key hq (fun h => (iha ho1 h).imp ?_) (fun h => (ihb ho2 h).imp ?_)
          · rintro ⟨fl, st'⟩ hfl
            cases fl <;> exact hfl.append_left
          · rintro ⟨fl, st'⟩ hfl
            cases fl <;> exact hfl.append_right
  | loop a iha =>
    intro S o st ho h
    simp only [exec] at ho
    obtain ⟨_, P, h1, _, h3⟩ := fixLoop_sound hG (step := fun st x => x = Interp.exec C a st)
      (fun S o hSo st hst x hx => by subst hx; exact iha hSo hst) ho
    simp only [Interp.exec]
    exact iterate_sound (fun st hst => h3 st hst _ rfl) _ st (h1 st h)
  | brk =>
    intro S o st ho h
    simp only [exec, Except.ok.injEq] at ho
    subst ho
    exact h
  | ret e =>
    intro S o st ho h
    simp only [exec] at ho
    split at ho
    · simp at ho
    · next l hl =>
      cases ho
      simp only [Interp.exec]
      refine (evalAll_sound hG hU ok hCU hCt hcall h hl).bind ?_
      rintro ⟨v, s'⟩ ⟨g, s1, h1, h2, h3⟩
      exact ⟨_, h1, h3⟩
  | fail off line =>
    intro S o st ho h
    cases S with
    | nil => exact h.nil.elim
    | cons s S => simp [exec] at ho
  | scan x lo hi body ih =>
    intro S o st ho h
    cases hi with
    | none =>
      simp only [exec] at ho
      simp only [Interp.exec]
      exact unroll_sound hG (fun S o hSo st hst => ih hSo hst) (bounded := false) rfl (by simp) ho h
    | some hi =>
      simp only [exec] at ho
      refine eachState_sound ?_ ho h
      intro s o hs hsim
      have h1 := evalA_sound hU hsim hi
      split at hs
      · next n hn =>
        rw [hn] at h1
        simp only [Interp.exec]
        cases hx : Interp.evalAtom st.env hi with
        | ok v =>
          rw [hx] at h1
          have h1 : v = .nat n := h1
          subst h1
          exact unroll_sound hG (fun S o hSo st hst => ih hSo hst) (bounded := true) rfl (fun _ => rfl) hs
            ⟨s, by simp, hsim⟩
        | err e => rw [hx] at h1; exact h1
        | panic p => rw [hx] at h1; exact h1
        | timeout => trivial
      · simp at hs
  | drain v x body ih =>
    intro S o st ho h
    simp only [exec] at ho
    obtain ⟨_, P, h1, h2, h3⟩ := fixLoop_sound hG
      (step := fun st y => ∃ n, y = Interp.exec C body { st with env := st.env.set x (.node n) })
      (fun S o hSo st hst y hy => by
        obtain ⟨n, rfl⟩ := hy
        exact ih hSo (setAll_sound (g := none) trivial hst)) ho
    simp only [Interp.exec]
    split
    · refine drain_sound (h2 rfl) (fun st hst n => h3 st hst _ ⟨n, rfl⟩) _ _ (h1 _ ?_)
      exact setAll_sound (g := none) trivial h
    · exact stuck_good
  | tryElse x f args hd _ =>
    intro S o st ho h
    simp only [exec] at ho
    split at ho
    · simp at ho
    · next l hl =>
      cases ho
      have h1 := evalAll_sound hG hU ok hCU hCt hcall h hl
      simp only [Interp.evalExp] at h1
      simp only [Interp.exec]
      cases hx : Interp.evalAtoms st.env args with
      | ok vs =>
        rw [hx] at h1
        show Good _ (match C.call f vs st.ps with
          | .ok (v, ps) => .ok (Flow.norm, { ps := ps, env := st.env.set x v })
          | .err _ => Interp.exec C hd st
          | .panic p => .panic p
          | .timeout => .timeout)
        cases hy : C.call f vs st.ps with
        | ok y =>
          obtain ⟨v, ps⟩ := y
          have h1 : ∃ g s', (fun (_ : Option GV) (s : GS) => s.set x none) g s' ∈ l ∧ ORel U g v ∧ Sim G U toks r s' { st with ps := ps } := by
            have h2 : Good _ (do
                let (v, ps) ← C.call f vs st.ps
                Out.ok (v, ({ st with ps := ps } : St))) := h1
            rw [hy] at h2
            exact h2
          obtain ⟨g, s', h2, h3, h4⟩ := h1
          exact ⟨_, h2, h4.set x none trivial⟩
        | err e =>
          have h2 : Good _ (do
              let (v, ps) ← C.call f vs st.ps
              Out.ok (v, ({ st with ps := ps } : St))) := h1
          rw [hy] at h2
          exact h2.elim
        | panic p =>
          have h2 : Good _ (do
              let (v, ps) ← C.call f vs st.ps
              Out.ok (v, ({ st with ps := ps } : St))) := h1
          rw [hy] at h2
          exact h2
        | timeout => trivial
      | err e => rw [hx] at h1; exact h1
      | panic p => rw [hx] at h1; exact h1
      | timeout => trivial

end

/-- A summary is right for a way to call functions. -/
def EntryOk (G : Tables) (U : Unicode) (toks : List Token) (call : Fn → List Val → PS → Out (Val × PS)) (f : Fn)
    (e : Entry) : Prop :=
  ∀ vs ps u r, List.Forall₂ (ORel U) e.args vs → view toks ps.pos = u ++ r → M G e.pre u → RestOk e.follow r →
    Good (fun (x : Val × PS) => ∃ p ∈ e.post, ∃ u', view toks x.2.pos = u' ++ r ∧ M G p u') (call f vs ps)

theorem callAt_sound {G : Tables} (hG : TOk G) {U : Unicode} {toks : List Token} {C : Ctx} {entries : List Entry}
    {f : Fn} (hE : ∀ e ∈ entries, EntryOk G U toks C.call f e) {args : List (Option GV)} :
    ∀ {n : Nat} {X : List GSym} {m : Mask} {l : List (List GSym × Mask)}, callAt G entries f args n X m = .ok l →
    ∀ vs ps u r, List.Forall₂ (ORel U) args vs → view toks ps.pos = u ++ r → M G X u → RestOk m r →
    Good (fun (x : Val × PS) => ∃ p ∈ l, ∃ u', view toks x.2.pos = u' ++ r ∧ M G p.1 u' ∧ RestOk p.2 r)
      (C.call f vs ps)
  | 0, X, m, l, h => by simp [callAt] at h
  | n + 1, X, m, l, h => by
    intro vs ps u r hvs hv hu hm
    simp only [callAt] at h
    split at h
    · next l' hl' =>
      cases h
      obtain ⟨e, he, hl'⟩ := firstSome_some hl'
      cases ha : argsLe args e.args with
      | false => rw [ha] at hl'; simp at hl'
      | true =>
        rw [ha] at hl'
        simp only [cond_true] at hl'
        split at hl'
        · next Y hY =>
          cases hf : (noRest e.follow || ((!noRest m || nonempty G Y) && Mask.le (firstOf G Y m) e.follow)) with
          | false => rw [hf] at hl'; simp at hl'
          | true =>
            rw [hf] at hl'
            cases hl'
            obtain ⟨v, w, rfl, h1, h2⟩ := fold_sound hG hY hu
            have h3 : RestOk e.follow (w ++ r) := by
              rw [Bool.or_eq_true, Bool.and_eq_true] at hf
              rcases hf with hf | ⟨hf1, hf2⟩
              · exact .inl (noRest_iff.1 hf)
              · obtain ⟨c, w', h4, h5⟩ := current_sound hG h2 hm (by
                  cases hn : noRest m <;> cases hX : nonempty G Y <;> simp_all)
                rw [h4]
                exact .of_head (Mask.le_has hf2 h5)
            refine (hE e he vs ps v (w ++ r) (argsLe_sound ha hvs) (by rw [hv, List.append_assoc]) h1 h3).imp ?_
            rintro ⟨x, ps'⟩ ⟨p, hp, u', h4, h5⟩
            exact ⟨_, List.mem_map.2 ⟨p, hp, rfl⟩, u' ++ w, by rw [List.append_assoc]; exact h4,
              M_append h5 h2, hm⟩
        · simp at hl'
    · split at h
      · next j a X' _ =>
        obtain ⟨q, hq, hu'⟩ := expand_sound hG hu
        obtain ⟨cs, h1, h2⟩ := collect_mem h q hq
        refine (callAt_sound hG hE h1 vs ps u r hvs hv hu' hm).imp ?_
        rintro x ⟨p, hp, h3⟩
        exact ⟨p, h2 p hp, h3⟩
      · simp at h

theorem bindG_sound {U : Unicode} : ∀ {xs : List Var} {as : List (Option GV)} {vs : List Val},
    List.Forall₂ (ORel U) as vs → EnvRel U (bindG xs as) (Interp.bindParams xs vs)
  | [], as, vs, _ => by intro x v h; simp [bindG, GS.look] at h
  | x :: xs, [], _, _ => by intro y v h; simp [bindG, GS.look] at h
  | x :: xs, a :: as, v :: vs, h => by
    cases h with
    | cons h1 h2 =>
      have ih := @bindG_sound U xs as vs h2
      intro y g hy
      simp only [Interp.bindParams, Env.set]
      cases a with
      | none =>
        simp only [bindG] at hy
        rw [look_forget] at hy
        split at hy
        · simp at hy
        · next hne => rw [if_neg hne]; exact ih y g hy
      | some a =>
        simp only [bindG] at hy
        rw [look_insert _ _ _ _ (by rw [look_forget]; simp), look_forget] at hy
        by_cases hyx : y = x
        · rw [if_pos hyx] at hy ⊢
          cases hy
          exact h1
        · rw [if_neg hyx, if_neg hyx] at hy
          rw [if_neg hyx]
          exact ih y g hy

theorem postOk_sound {G : Tables} (hG : TOk G) {X : List GSym} {u : List Nat} (hu : M G X u) :
    ∀ {post : List (List GSym)}, postOk G X post = true → ∃ p ∈ post, M G p u
  | [], h => by simp [postOk] at h
  | p :: ps, h => by
    simp only [postOk] at h
    split at h
    · next hf =>
      obtain ⟨v, w, rfl, h1, h2⟩ := fold_sound hG hf hu
      rw [M_nil h2, List.append_nil]
      exact ⟨p, by simp, h1⟩
    · obtain ⟨q, h1, h2⟩ := postOk_sound hG hu h
      exact ⟨q, by simp [h1], h2⟩

theorem retsOk_mem {G : Tables} {post : List (List GSym)} : ∀ {l : List GS}, retsOk G post l = true →
    ∀ s ∈ l, postOk G s.X post = true
  | [], _, s, h => by simp at h
  | t :: l, h, s, hs => by
    simp only [retsOk, Bool.and_eq_true] at h
    rcases List.mem_cons.1 hs with rfl | hs
    · exact h.1
    · exact retsOk_mem h.2 s hs

/-- Checked summaries are right. -/
theorem callN_sound {G : Tables} (hG : TOk G) {U : Unicode} (hU : U.Lawful) {toks : List Token} (ok : TokOk toks)
    {defs : Fn → FunDef} {tab : Fn → List Entry} (fuel : Nat)
    (hE : ∀ f, ∀ e ∈ tab f, checkEntry G tab (defs f) e = true) :
    ∀ n f, ∀ e ∈ tab f, EntryOk G U toks (Interp.callN U defs toks fuel n) f e
  | 0, f, e, _ => fun _ _ _ _ _ _ _ _ => trivial
  | n + 1, f, e, he => by
    intro vs ps u r hvs hv hu hm
    have hck := hE f e he
    unfold checkEntry at hck
    split at hck
    · next o ho =>
      simp only [Interp.callN]
      unfold Interp.runBody
      have hcall : CallOk G U toks ⟨U, toks, fuel, Interp.callN U defs toks fuel n⟩ (callTab G tab) := by
        intro g args X m l hl
        exact callAt_sound hG (C := ⟨U, toks, fuel, Interp.callN U defs toks fuel n⟩)
          (callN_sound hG hU ok fuel hE n g) hl
      have h1 := exec_sound hG hU ok (C := ⟨U, toks, fuel, Interp.callN U defs toks fuel n⟩) rfl rfl hcall
        (st := ⟨ps, Interp.bindParams (defs f).params vs⟩) ho
        ⟨_, List.mem_singleton.2 rfl, bindG_sound hvs, ⟨u, hv, hu⟩, hm⟩
      split
      · next v s hx =>
        rw [hx] at h1
        obtain ⟨s', h2, h3⟩ := h1
        obtain ⟨w, h4, h5⟩ := h3.str
        obtain ⟨p, h6, h7⟩ := postOk_sound hG h5 (retsOk_mem hck s' h2)
        exact ⟨p, h6, w, h4, h7⟩
      · exact stuck_good
      · next e hx => rw [hx] at h1; exact h1
      · next p hx => rw [hx] at h1; exact h1
      · trivial
    · simp at hck

end Verif.GI
