import Verif.Proofs.SoundState
/-! Soundness of the analysis of conditions. -/
namespace Verif.AI
open Core Spec Interp

variable {U : Unicode} {toks : List Token} {w : Token → Nat} {z : Bool}

/-! ### Refinement by tokens -/

theorem and_ne_zero {a b i : Nat} (ha : a.testBit i = true) (hb : b.testBit i = true) :
    Nat.beq (a &&& b) 0 = false := by
  rw [← Bool.not_eq_true]
  intro h
  have h := Nat.eq_of_beq_eq_true h
  have : (a &&& b).testBit i = true := by rw [Nat.testBit_and, ha, hb]; rfl
  rw [h] at this
  simp at this

theorem refineAlts_eq (m : Mask) (as : List Alt) :
    refineAlts m as = as.map fun a => ⟨a.ty, a.mN, a.mV, a.must, a.lit &&& m⟩ := by
  induction as with
  | nil => rfl
  | cons a as ih => simp [refineAlts, ih]

theorem refineVar_names (x : Var) (m : Mask) (l : List (Var × AVal)) :
    (refineVar x m l).map Prod.fst = l.map Prod.fst := by
  induction l with
  | nil => rfl
  | cons p l ih =>
    obtain ⟨y, v⟩ := p
    simp only [refineVar]
    split
    · rfl
    · simp [ih]

theorem refineVar_mem {x : Var} {m : Mask} {l : List (Var × AVal)} {p : Var × AVal}
    (h : p ∈ refineVar x m l) : p ∈ l ∨ ∃ as, (p.1, AVal.node as) ∈ l ∧ p.1 = x ∧
      p.2 = .node (refineAlts m as) := by
  induction l with
  | nil => simp [refineVar] at h
  | cons q l ih =>
    obtain ⟨y, v⟩ := q
    simp only [refineVar] at h
    split at h
    · next hb =>
      have := Nat.eq_of_beq_eq_true hb
      subst this
      rcases List.mem_cons.1 h with rfl | h
      · cases v with
        | node as => exact .inr ⟨as, by simp, rfl, rfl⟩
        | _ => exact .inl (by simp)
      · exact .inl (List.mem_cons_of_mem _ h)
    · rcases List.mem_cons.1 h with rfl | h
      · exact .inl (by simp)
      · rcases ih h with h | ⟨as, h1, h2⟩
        · exact .inl (List.mem_cons_of_mem _ h)
        · exact .inr ⟨as, List.mem_cons_of_mem _ h1, h2⟩

theorem refine0_sound {a : AState} {s : St} (h : GS U toks a s) {m : Mask} {t : Token}
    (ht : getToken toks s.ps 0 = .ok t) (hm : m.testBit (cls U t) = true) :
    ∃ b ∈ refine0 m a, GS U toks b s ∧ Same a b := by
  have h0 := h.mask.m0 t ht
  unfold refine0
  dsimp only
  rw [and_ne_zero h0 hm]
  refine ⟨_, List.mem_singleton.2 rfl, ?_, ?_⟩
  · have hmask : MaskOk U toks (a.t0 &&& m) a.t1 s.ps := by
      refine ⟨fun t' ht' => ?_, h.mask.m1⟩
      rw [ht] at ht'
      cases ht'
      rw [Nat.testBit_and, h0, hm]; rfl
    refine ⟨h.wf, hmask, ?_, ?_, h.fresh⟩
    · dsimp only
      split
      · next x hx =>
        intro p hp
        rcases refineVar_mem hp with hp | ⟨as, h1, h2, h3⟩
        · exact h.vars p hp
        · obtain ⟨n, hn, hf⟩ := h.fresh x hx
          have hv := h.vars _ h1
          dsimp only at hv
          rw [h2, hn] at hv
          rw [h3, h2, hn]
          obtain ⟨ho, b, hb, hs⟩ := hv
          refine ⟨ho, ⟨b.ty, b.mN, b.mV, b.must, b.lit &&& m⟩, ?_, hs.ty, hs.node, hs.vec, hs.must, ?_⟩
          · rw [refineAlts_eq]; exact List.mem_map_of_mem hb
          · have hc : nodeCls U n = cls U t := by
              unfold nodeCls
              rw [hf.tok, getToken_zero h.wf.inp ht]
            have hl := hs.lit
            rw [hc] at hl ⊢
            rw [Nat.testBit_and, hl, hm]; rfl
      · exact h.vars
    · dsimp only
      split
      · rw [refineVar_names]; exact h.nodup
      · exact h.nodup
  · refine ⟨rfl, ?_⟩
    dsimp only
    split
    · rw [refineVar_names]
    · rfl

theorem refine1_sound {a : AState} {s : St} (h : GS U toks a s) {m : Mask} {t : Token}
    (ht : getToken toks s.ps 1 = .ok t) (hm : m.testBit (cls U t) = true) :
    ∃ b ∈ refine1 m a, GS U toks b s ∧ Same a b := by
  have h0 := h.mask.m1 t ht
  unfold refine1
  dsimp only
  rw [and_ne_zero h0 hm]
  refine ⟨_, List.mem_singleton.2 rfl, ⟨h.wf, ⟨h.mask.m0, fun t' ht' => ?_⟩, h.vars, h.nodup, h.fresh⟩,
    ⟨rfl, rfl⟩⟩
  rw [ht] at ht'
  cases ht'
  rw [Nat.testBit_and, h0, hm]; rfl

/-! ### Offsets -/

theorem getToken_nopanic (ps : PS) (n : Nat) (hp : ps.In toks) :
    (∃ t, getToken toks ps n = .ok t) ∨ ∃ e, getToken toks ps n = .err e := by
  rcases getToken_cases toks ps hp n with ⟨_, t, _, h, _⟩ | ⟨_, t, _, _, h⟩
  · exact .inl ⟨t, h⟩
  · exact .inr ⟨_, h⟩

theorem getPrecedence_nopanic (ps : PS) (n : Nat) (hp : ps.In toks) :
    (∃ k, getPrecedence U toks ps n = .ok k) ∨ ∃ e, getPrecedence U toks ps n = .err e := by
  unfold getPrecedence
  rcases getToken_nopanic ps n hp with ⟨t, ht⟩ | ⟨e, he⟩
  · rw [ht]
    dsimp only
    split
    · rcases getToken_nopanic ps (n + 1) hp with ⟨t, ht⟩ | ⟨e, he⟩
      · rw [ht]
        dsimp only
        split
        · exact .inl ⟨_, rfl⟩
        · split
          · exact .inl ⟨_, rfl⟩
          · exact .inr ⟨_, rfl⟩
      · rw [he]; exact .inr ⟨_, rfl⟩
    · exact .inl ⟨_, rfl⟩
  · rw [he]; exact .inr ⟨_, rfl⟩

theorem evalOff_sound {a : AState} {s : St} (h : GS U toks a s) {o : Off} (ho : offOk a o = true) :
    ∃ n, evalOff s.env o = .ok n := by
  cases o with
  | lit n => exact ⟨n, rfl⟩
  | var x k =>
    simp only [offOk] at ho
    split at ho
    · next ht =>
      have := h.get ht
      cases he : s.env x <;> rw [he] at this <;> try exact this.elim
      next n => exact ⟨n + k, by simp only [evalOff, he]⟩
    · cases ho

theorem offTok_sound {a : AState} {s : St} (h : GS U toks a s) {o : Off} (ho : offOk a o = true)
    {fuel : Nat} {call : Fn → List Val → PS → Out (Val × PS)} :
    (∃ t n, evalOff s.env o = .ok n ∧ getToken toks s.ps n = .ok t ∧
      offTok ⟨U, toks, fuel, call⟩ s o = .ok t) ∨ ∃ e, offTok ⟨U, toks, fuel, call⟩ s o = .err e := by
  obtain ⟨n, hn⟩ := evalOff_sound h ho
  unfold offTok
  rw [hn]
  rcases getToken_nopanic s.ps n h.wf.inp with ⟨t, ht⟩ | ⟨e, he⟩
  · exact .inl ⟨t, n, rfl, ht, ht⟩
  · exact .inr ⟨e, he⟩

theorem refineOff_sound {a : AState} {s : St} (h : GS U toks a s) {o : Off} {n : Nat} {t : Token} {m : Mask}
    (hn : evalOff s.env o = .ok n) (ht : getToken toks s.ps n = .ok t) (hm : m.testBit (cls U t) = true) :
    ∃ b ∈ refineOff o m a, GS U toks b s ∧ Same a b := by
  unfold refineOff
  split
  · cases hn; exact refine0_sound h ht hm
  · cases hn; exact refine1_sound h ht hm
  · exact ⟨a, by simp, h, Same.rfl' a⟩

/-! ### Conditions -/

/-- The outcome of a condition fits. -/
def CondOk (U : Unicode) (toks : List Token) (r : TF) (a : AState) (s : St) : Out Bool → Prop
  | .ok true => ∃ b ∈ r.1, GS U toks b s ∧ Same a b
  | .ok false => ∃ b ∈ r.2, GS U toks b s ∧ Same a b
  | .err _ => True
  | .panic p => p = .emptyLiteral
  | .timeout => True

theorem condOk_both {a : AState} {s : St} (h : GS U toks a s) (b : Bool) :
    CondOk U toks ([a], [a]) a s (.ok b) := by
  cases b <;> exact ⟨a, by simp, h, Same.rfl' a⟩

theorem assumeAll_ok {f : AState → R TF} {l : List AState} {r : TF} (h : assumeAll f l = .ok r) :
    ∀ a ∈ l, ∃ q, f a = .ok q ∧ (∀ b ∈ q.1, b ∈ r.1) ∧ (∀ b ∈ q.2, b ∈ r.2) := by
  induction l generalizing r with
  | nil => simp
  | cons x l ih =>
    simp only [assumeAll] at h
    split at h
    · cases h
    · next t u hx =>
      split at h
      · cases h
      · next t' u' hl =>
        cases h
        intro a ha
        rcases List.mem_cons.1 ha with rfl | ha
        · exact ⟨_, hx, fun b hb => List.mem_append_left _ hb, fun b hb => List.mem_append_left _ hb⟩
        · obtain ⟨q, h1, h2, h3⟩ := ih hl a ha
          exact ⟨q, h1, fun b hb => List.mem_append_right _ (h2 b hb),
            fun b hb => List.mem_append_right _ (h3 b hb)⟩

theorem CondOk.mono {q r : TF} {a c : AState} {s : St} {x : Out Bool} (h : CondOk U toks q a s x)
    (hs : Same c a) (h1 : ∀ b ∈ q.1, b ∈ r.1) (h2 : ∀ b ∈ q.2, b ∈ r.2) : CondOk U toks r c s x := by
  rcases x with (_ | _) | _ | _ | _
  · obtain ⟨b, hb, g, e⟩ := h
    exact ⟨b, h2 b hb, g, hs.trans e⟩
  · obtain ⟨b, hb, g, e⟩ := h
    exact ⟨b, h1 b hb, g, hs.trans e⟩
  · trivial
  · exact h
  · trivial

theorem assume_sound (hU : U.Lawful) {fuel : Nat} {call : Fn → List Val → PS → Out (Val × PS)} {s : St} :
    ∀ (c : Cond) (a : AState) (r : TF), assume c a = .ok r → GS U toks a s →
      CondOk U toks r a s (evalCond ⟨U, toks, fuel, call⟩ s c) := by
  intro c
  induction c with
  | up o ks =>
    intro a r hr h
    simp only [assume] at hr
    split at hr
    · next ho =>
      cases hr
      rcases offTok_sound (fuel := fuel) (call := call) h ho with ⟨t, n, hn, ht, h'⟩ | ⟨e, h'⟩
      · simp only [evalCond, h']
        show CondOk U toks _ a s (.ok (t.inKws U ks))
        cases hk : t.inKws U ks
        · exact refineOff_sound h hn ht (not_inKws U t ks hk)
        · exact refineOff_sound h hn ht ((inKws_iff U t ks).1 hk)
      · simp only [evalCond, h']; trivial
    · cases hr
  | raw o ks =>
    intro a r hr h
    simp only [assume] at hr
    split at hr
    · next ho =>
      cases hr
      rcases offTok_sound (fuel := fuel) (call := call) h ho with ⟨t, n, hn, ht, h'⟩ | ⟨e, h'⟩
      · simp only [evalCond, h']
        show CondOk U toks _ a s (.ok (ks.any fun k => t.literal == k.lit))
        cases hk : ks.any fun k => t.literal == k.lit
        · show ∃ b ∈ (if ks.all isSym = true then refineOff o (TOP ^^^ kwMask ks) a else [a]), _
          split
          · next hs => exact refineOff_sound h hn ht (raw_false hU hk hs)
          · exact ⟨a, by simp, h, Same.rfl' a⟩
        · exact refineOff_sound h hn ht (raw_true hU hk)
      · simp only [evalCond, h']; trivial
    · cases hr
  | upVar o x =>
    intro a r hr h
    simp only [assume] at hr
    split at hr
    · next ho =>
      split at hr
      · next hx =>
        cases hr
        obtain ⟨_, hx⟩ := get_take hx
        have hv := h.get hx
        rcases offTok_sound (fuel := fuel) (call := call) h ho with ⟨t, n, hn, ht, h'⟩ | ⟨e, h'⟩
        · simp only [evalCond, h']
          cases he : s.env x <;> rw [he] at hv <;> first | exact hv.elim | exact condOk_both h _
        · simp only [evalCond, h']; trivial
      · cases hr
    · cases hr
  | isIdent o | isStr o | isNum o =>
    intro a r hr h
    simp only [assume] at hr
    split at hr
    · next ho =>
      cases hr
      rcases offTok_sound (fuel := fuel) (call := call) h ho with ⟨t, n, hn, ht, h'⟩ | ⟨e, h'⟩
      · simp only [evalCond, h']
        exact condOk_both h _
      · simp only [evalCond, h']; trivial
    · cases hr
  | eof o =>
    intro a r hr h
    simp only [assume] at hr
    split at hr
    · next ho =>
      cases hr
      obtain ⟨n, hn⟩ := evalOff_sound h ho
      simp only [evalCond, hn]
      exact condOk_both h _
    · cases hr
  | hasTok o =>
    intro a r hr h
    simp only [assume] at hr
    split at hr
    · next ho =>
      cases hr
      obtain ⟨n, hn⟩ := evalOff_sound h ho
      simp only [evalCond, hn]
      rcases getToken_nopanic s.ps n h.wf.inp with ⟨t, ht⟩ | ⟨e, he⟩
      · show CondOk U toks _ a s (match getToken toks s.ps n with
          | .ok _ => .ok true | .err _ => .ok false | .panic p => .panic p | .timeout => .timeout)
        rw [ht]; exact condOk_both h _
      · show CondOk U toks _ a s (match getToken toks s.ps n with
          | .ok _ => .ok true | .err _ => .ok false | .panic p => .panic p | .timeout => .timeout)
        rw [he]; exact condOk_both h _
    · cases hr
  | bvar x =>
    intro a r hr h
    simp only [assume] at hr
    split at hr
    · next hx =>
      cases hr
      obtain ⟨_, hx⟩ := get_take hx
      have hv := h.get hx
      simp only [evalCond]
      cases he : s.env x <;> rw [he] at hv <;> try exact hv.elim
      rcases hv with hv | hv
      · cases hv
      · cases hv; exact ⟨a, by simp, h, Same.rfl' a⟩
    · next hx =>
      cases hr
      obtain ⟨_, hx⟩ := get_take hx
      have hv := h.get hx
      simp only [evalCond]
      cases he : s.env x <;> rw [he] at hv <;> try exact hv.elim
      rcases hv with hv | hv
      · cases hv
      · cases hv; exact ⟨a, by simp, h, Same.rfl' a⟩
    · next hx =>
      cases hr
      obtain ⟨_, hx⟩ := get_take hx
      have hv := h.get hx
      simp only [evalCond]
      cases he : s.env x <;> rw [he] at hv <;> try exact hv.elim
      exact condOk_both h _
    · cases hr
  | const b =>
    intro a r hr h
    simp only [assume] at hr
    cases hr
    cases b <;> exact ⟨a, by simp, h, Same.rfl' a⟩
  | precLt x =>
    intro a r hr h
    simp only [assume] at hr
    split at hr
    · next hx =>
      cases hr
      obtain ⟨_, hx⟩ := get_take hx
      have hv := h.get hx
      simp only [evalCond]
      rcases getPrecedence_nopanic (U := U) s.ps 1 h.wf.inp with ⟨t, ht⟩ | ⟨e, he⟩
      · rw [ht]
        cases he : s.env x <;> rw [he] at hv <;> first | exact hv.elim | exact condOk_both h _
      · rw [he]; trivial
    · cases hr
  | lenPos x =>
    intro a r hr h
    simp only [assume] at hr
    split at hr
    · next as zz o m hx =>
      cases hr
      obtain ⟨_, hx⟩ := get_take hx
      have hv := h.get hx
      simp only [evalCond]
      cases he : s.env x <;> rw [he] at hv <;> try exact hv.elim
      next ns =>
      obtain ⟨h1, h2, h3, h4⟩ := hv
      by_cases hl : 0 < ns.length
      · simp only [hl, decide_true]
        show ∃ b ∈ (if (o || m) = true then _ else []), _
        have : (o || m) = true := by
          rw [Bool.or_eq_true]
          by_cases h5 : ns.length = 1
          · exact .inl (h3 h5)
          · exact .inr (h4 (by omega))
        rw [if_pos this]
        refine ⟨_, List.mem_singleton.2 rfl, h.replace hx ?_⟩
        rw [he]
        exact ⟨h1, fun h => by omega, h3, h4⟩
      · have hl0 : ns.length = 0 := by omega
        simp only [hl, decide_false]
        show ∃ b ∈ (if zz = true then _ else []), _
        rw [if_pos (h2 hl0)]
        refine ⟨_, List.mem_singleton.2 rfl, h.replace hx ?_⟩
        rw [he]
        exact ⟨h1, fun _ => rfl, fun h => by omega, fun h => by omega⟩
    · cases hr
  | lenOne x =>
    intro a r hr h
    simp only [assume] at hr
    split at hr
    · next as zz o m hx =>
      cases hr
      obtain ⟨_, hx⟩ := get_take hx
      have hv := h.get hx
      simp only [evalCond]
      cases he : s.env x <;> rw [he] at hv <;> try exact hv.elim
      next ns =>
      obtain ⟨h1, h2, h3, h4⟩ := hv
      by_cases hl : ns.length = 1
      · simp only [hl, beq_self_eq_true]
        show ∃ b ∈ (if o = true then _ else []), _
        rw [if_pos (h3 hl)]
        refine ⟨_, List.mem_singleton.2 rfl, h.replace hx ?_⟩
        rw [he]
        exact ⟨h1, fun h => by omega, fun _ => rfl, fun h => by omega⟩
      · have hb : (ns.length == 1) = false := by simpa using hl
        simp only [hb]
        show ∃ b ∈ (if (zz || m) = true then _ else []), _
        have : (zz || m) = true := by
          rw [Bool.or_eq_true]
          by_cases h5 : ns.length = 0
          · exact .inl (h2 h5)
          · exact .inr (h4 (by omega))
        rw [if_pos this]
        refine ⟨_, List.mem_singleton.2 rfl, h.replace hx ?_⟩
        rw [he]
        exact ⟨h1, h2, fun h => absurd h hl, h4⟩
    · cases hr
  | strIs x k =>
    intro a r hr h
    simp only [assume] at hr
    split at hr
    · next hx =>
      cases hr
      obtain ⟨_, hx⟩ := get_take hx
      have hv := h.get hx
      simp only [evalCond]
      cases he : s.env x <;> rw [he] at hv <;> first | exact hv.elim | exact condOk_both h _
    · cases hr
  | typeIs x nt =>
    intro a r hr h
    simp only [assume] at hr
    split at hr
    · next as hx =>
      cases hr
      obtain ⟨_, hx⟩ := get_take hx
      have hv := h.get hx
      simp only [evalCond]
      cases he : s.env x <;> rw [he] at hv <;> try exact hv.elim
      next n =>
      obtain ⟨ho, b, hb, hs⟩ := hv
      show CondOk U toks _ a s (.ok (n.ty == nt))
      cases hty : (n.ty == nt)
      · refine ⟨_, List.mem_singleton.2 rfl, h.replace hx ?_⟩
        rw [he]
        refine ⟨ho, b, ?_, hs⟩
        rw [List.mem_filter]
        refine ⟨hb, ?_⟩
        rw [← hs.ty]
        have : n.ty ≠ nt := by simpa using hty
        cases hq : tyEq n.ty nt
        · rfl
        · exact absurd (tyEq_iff.1 hq) this
      · refine ⟨_, List.mem_singleton.2 rfl, h.replace hx ?_⟩
        rw [he]
        refine ⟨ho, b, ?_, hs⟩
        rw [List.mem_filter]
        refine ⟨hb, ?_⟩
        rw [← hs.ty]
        exact tyEq_iff.2 (by simpa using hty)
    · cases hr
  | leftmostIs x nt =>
    intro a r hr h
    simp only [assume] at hr
    split at hr
    · next hx =>
      cases hr
      obtain ⟨_, hx⟩ := get_take hx
      have hv := h.get hx
      simp only [evalCond]
      cases he : s.env x <;> rw [he] at hv <;> first | exact hv.elim | exact condOk_both h _
    · next hx =>
      cases hr
      obtain ⟨_, hx⟩ := get_take hx
      have hv := h.get hx
      simp only [evalCond]
      cases he : s.env x <;> rw [he] at hv <;> first | exact hv.elim | exact condOk_both h _
    · cases hr
  | hasAnyKey x ks =>
    intro a r hr h
    simp only [assume] at hr
    split at hr
    · next as hx =>
      cases hr
      obtain ⟨_, hx⟩ := get_take hx
      have hv := h.get hx
      simp only [evalCond]
      cases he : s.env x <;> rw [he] at hv <;> try exact hv.elim
      next n =>
      obtain ⟨ho, b, hb, hs⟩ := hv
      show CondOk U toks _ a s (.ok (n.kids.keys.any fun k => ks.contains k))
      cases hk : (n.kids.keys.any fun k => ks.contains k)
      · refine ⟨_, List.mem_singleton.2 rfl, h.replace hx ?_⟩
        rw [he]
        have hno : ∀ k ∈ ks, arrayAt n.kids k = none := by
          intro k hk'
          by_contra hc
          have := (mem_keys_iff n.kids k).2 hc
          have h2 : (n.kids.keys.any fun k => ks.contains k) = true :=
            List.any_eq_true.2 ⟨k, this, by simpa using hk'⟩
          rw [hk] at h2
          cases h2
        have hbit : ∀ k, arrayAt n.kids k ≠ none → (keysMask ks).testBit k.ctorIdx = false := by
          intro k hk'
          rw [← Bool.not_eq_true, testBit_keysMask]
          rintro ⟨k', hk1, hk2⟩
          have := key_inj hk2
          subst this
          exact hk' (hno _ hk1)
        refine ⟨ho, _, List.mem_map_of_mem (List.mem_filter.2 ⟨hb, ?_⟩), hs.ty, ?_, ?_, hs.must, hs.lit⟩
        · rw [show (0 : Nat) = 0 from rfl]
          have : b.must &&& keysMask ks = 0 := by
            apply Nat.eq_of_testBit_eq
            intro i
            rw [Nat.testBit_and, Nat.zero_testBit]
            cases h1 : (keysMask ks).testBit i
            · simp
            · obtain ⟨k, hk1, rfl⟩ := (testBit_keysMask ks i).1 h1
              cases h2 : b.must.testBit k.ctorIdx
              · rfl
              · exact absurd (hno k hk1) (hs.must k h2)
          rw [this]; rfl
        · intro k hk'
          have h1 := hs.node k hk'
          have h2 := hbit k (by rw [hk']; simp)
          rw [Nat.testBit_and, Nat.testBit_xor, h1, h2]; rfl
        · intro k hk'
          have h1 := hs.vec k hk'
          have h2 := hbit k (by rw [hk']; simp)
          rw [Nat.testBit_and, Nat.testBit_xor, h1, h2]; rfl
      · exact ⟨a, by simp, h, Same.rfl' a⟩
    · cases hr
  | firstCharIs c =>
    intro a r hr h
    simp only [assume] at hr
    cases hr
    simp only [evalCond]
    rcases getToken_nopanic s.ps 0 h.wf.inp with ⟨t, ht⟩ | ⟨e, he⟩
    · rw [ht]
      show CondOk U toks _ a s (match t.literal.head? with | some d => .ok (d == c) | none => .panic .emptyLiteral)
      split
      · exact condOk_both h _
      · rfl
    · rw [he]; trivial
  | lastCharIs c =>
    intro a r hr h
    simp only [assume] at hr
    cases hr
    simp only [evalCond]
    rcases getToken_nopanic s.ps 0 h.wf.inp with ⟨t, ht⟩ | ⟨e, he⟩
    · rw [ht]
      show CondOk U toks _ a s (match t.literal.getLast? with | some d => .ok (d == c) | none => .panic .emptyLiteral)
      split
      · exact condOk_both h _
      · rfl
    · rw [he]; trivial
  | adjacent =>
    intro a r hr h
    simp only [assume] at hr
    cases hr
    simp only [evalCond]
    rcases getToken_nopanic s.ps 0 h.wf.inp with ⟨t, ht⟩ | ⟨e, he⟩
    · rw [ht]
      rcases getToken_nopanic s.ps 1 h.wf.inp with ⟨t', ht'⟩ | ⟨e, he⟩
      · rw [ht']; exact condOk_both h _
      · rw [he]; trivial
    · rw [he]; trivial
  | and c d ihc ihd =>
    intro a r hr h
    simp only [assume] at hr
    split at hr
    · cases hr
    · next t f hc =>
      split at hr
      · cases hr
      · next t' f' hd =>
        cases hr
        have h1 := ihc a _ hc h
        simp only [evalCond]
        rcases hx : evalCond ⟨U, toks, fuel, call⟩ s c with (_ | _) | _ | _ | _ <;> rw [hx] at h1
        · obtain ⟨b, hb, g, e⟩ := h1
          exact ⟨b, List.mem_append_left _ hb, g, e⟩
        · obtain ⟨b, hb, g, e⟩ := h1
          obtain ⟨q, hq, q1, q2⟩ := assumeAll_ok hd b hb
          exact (ihd b q hq g).mono e q1 fun x hx => List.mem_append_right _ (q2 x hx)
        · trivial
        · exact h1
        · trivial
  | or c d ihc ihd =>
    intro a r hr h
    simp only [assume] at hr
    split at hr
    · cases hr
    · next t f hc =>
      split at hr
      · cases hr
      · next t' f' hd =>
        cases hr
        have h1 := ihc a _ hc h
        simp only [evalCond]
        rcases hx : evalCond ⟨U, toks, fuel, call⟩ s c with (_ | _) | _ | _ | _ <;> rw [hx] at h1
        · obtain ⟨b, hb, g, e⟩ := h1
          obtain ⟨q, hq, q1, q2⟩ := assumeAll_ok hd b hb
          exact (ihd b q hq g).mono e (fun x hx => List.mem_append_right _ (q1 x hx)) q2
        · obtain ⟨b, hb, g, e⟩ := h1
          exact ⟨b, List.mem_append_left _ hb, g, e⟩
        · trivial
        · exact h1
        · trivial
  | not c ihc =>
    intro a r hr h
    simp only [assume] at hr
    split at hr
    · cases hr
    · next t f hc =>
      cases hr
      have h1 := ihc a _ hc h
      simp only [evalCond]
      rcases hx : evalCond ⟨U, toks, fuel, call⟩ s c with (_ | _) | _ | _ | _ <;> rw [hx] at h1
      · exact h1
      · exact h1
      · trivial
      · exact h1
      · trivial

end Verif.AI
