import Verif.Analysis.Blame
import Verif.Proofs.Core
/-! Soundness of `Analysis/Blame.lean`: every error of the parser is justified. -/
namespace Verif.Blame
open Core Interp

/-! ### The next token -/

theorem scan_shift (o c i : Nat) (ts : List Token) : scanFrom (o + 1) (c + 1) i ts = scanFrom o c i ts := by
  induction ts generalizing c i with
  | nil => rfl
  | cons t ts ih => simp only [scanFrom, ih, Nat.add_le_add_iff_right]

theorem scan_next {n i : Nat} {ts : List Token} {j : Nat} (h : scanFrom 1 0 i ts = some j) :
    scanFrom (n + 2) 0 i ts = scanFrom (n + 1) 0 (j + 1) (ts.drop (j + 1 - i)) := by
  induction ts generalizing i with
  | nil => simp [scanFrom] at h
  | cons t ts ih =>
    have hle := (scanFrom_spec _ _ _ _ _ h).1
    simp only [scanFrom] at h ⊢
    split at h
    · next hc =>
      have hle' := (scanFrom_spec _ _ _ _ _ h).1
      rw [if_pos hc, ih h, show j + 1 - i = (j + 1 - (i + 1)) + 1 by omega, List.drop_succ_cons]
    · next hc =>
      simp only [Nat.zero_add, Nat.le_refl, if_true, Option.some.injEq] at h
      subst h
      rw [if_neg hc]
      simp only [Nat.zero_add, show ¬ n + 2 ≤ 1 by omega, if_false]
      rw [show i + 1 - i = 1 by omega, List.drop_succ_cons, List.drop_zero]
      exact scan_shift (n + 1) 0 _ _

theorem next_pos {toks : List Token} {ps ps' : PS} (h : nextToken toks ps = .ok ps') :
    getOffsetIndex toks ps 1 = .ok ps'.pos := by
  unfold nextToken at h
  split at h <;> try cases h
  next i hi =>
  dsimp only at h
  rw [hi]
  split at h
  · split at h <;> cases h
    rfl
  · cases h; rfl

theorem scan_of_offset {toks : List Token} {ps : PS} {n i : Nat} (h : getOffsetIndex toks ps (n + 1) = .ok i) :
    scanFrom (n + 1) 0 (ps.pos + 1) (toks.drop (ps.pos + 1)) = some i := by
  unfold getOffsetIndex at h
  simp only [Nat.add_eq_zero_iff, Nat.one_ne_zero, and_false, if_false] at h
  split at h
  · next hs => cases h; exact hs
  · split at h <;> cases h

theorem next_tok {toks : List Token} {ps ps' : PS} (h : nextToken toks ps = .ok ps') (n : Nat) :
    getToken toks ps' n = getToken toks ps (n + 1) := by
  have hp := next_pos h
  have hs := scan_of_offset hp
  have hle := (scanFrom_spec _ _ _ _ _ hs).1
  cases n with
  | zero =>
    unfold getToken
    rw [hp]
    simp [getOffsetIndex]
  | succ n =>
    have : getOffsetIndex toks ps' (n + 1) = getOffsetIndex toks ps (n + 2) := by
      unfold getOffsetIndex
      simp only [Nat.add_eq_zero_iff, Nat.one_ne_zero, Nat.succ_ne_zero, and_false, if_false]
      rw [scan_next hs, List.drop_drop, show ps.pos + 1 + (ps'.pos + 1 - (ps.pos + 1)) = ps'.pos + 1 by omega]
    unfold getToken
    rw [this]

/-! ### Facts -/

variable {U : Unicode} {toks : List Token}

/-- The meaning of a fact. -/
def Fact.Holds (U : Unicode) (toks : List Token) (env : Env) (ps : PS) : Fact → Prop
  | .tok o ks b => ∃ n t, evalOff env o = .ok n ∧ getToken toks ps n = .ok t ∧ t.inKws U ks = b
  | .fin => ∃ p, getPrecedence U toks ps 1 = .ok p ∧ p < usizeMax

/-- All facts hold. -/
def Holds (U : Unicode) (toks : List Token) (F : List Fact) (s : St) : Prop :=
  ∀ f ∈ F, f.Holds U toks s.env s.ps

/-- Binding strengths are bounded. -/
def NatInv (env : Env) : Prop := ∀ x ∈ precVars, ∀ n, env x = .nat n → n ≤ usizeMax

theorem Fact.Holds.lit {f : Fact} (hf : f.isLit = true) {env env' : Env} {ps : PS} (h : f.Holds U toks env ps) :
    f.Holds U toks env' ps := by
  cases f with
  | fin => exact h
  | tok o ks b =>
    cases o with
    | lit n => exact h
    | var x k => simp [Fact.isLit] at hf

theorem Holds.lit {F : List Fact} {s : St} (h : Holds U toks F s) (env : Env) :
    Holds U toks (F.filter Fact.isLit) ⟨s.ps, env⟩ := by
  intro f hf
  obtain ⟨h1, h2⟩ := List.mem_filter.1 hf
  exact (h f h1).lit h2

theorem Holds.nil {s : St} : Holds U toks [] s := by intro f hf; cases hf

theorem Holds.append {F G : List Fact} {s : St} (h : Holds U toks F s) (h' : Holds U toks G s) :
    Holds U toks (F ++ G) s := by
  intro f hf
  rcases List.mem_append.1 hf with h1 | h1
  · exact h f h1
  · exact h' f h1

theorem NatInv.set {env : Env} (h : NatInv env) {x : Var} {v : Val}
    (hv : precVars.contains x = false ∨ ∀ n, v = .nat n → n ≤ usizeMax) : NatInv (env.set x v) := by
  intro y hy n hn
  simp only [Env.set] at hn
  split at hn
  · next e =>
    subst e
    rcases hv with hv | hv
    · simp [hy] at hv
    · exact hv n hn
  · exact h y hy n hn

theorem precTable_fin {t : Token} (h : precTable U t < usizeMax) : t.inKws U finWords = true := by
  rw [← Bool.not_eq_false]
  intro hf
  simp only [Token.inKws, finWords, List.any_cons, List.any_nil, Bool.or_eq_false_iff] at hf
  simp [precTable, Token.inKws, hf] at h

theorem ite_le {c : Prop} [Decidable c] {a b m : Nat} (ha : a ≤ m) (hb : b ≤ m) : (if c then a else b) ≤ m := by
  split <;> assumption

theorem precTable_le (t : Token) : precTable U t ≤ usizeMax := by
  unfold precTable
  repeat' apply ite_le
  all_goals decide

theorem getPrecedence_le {ps : PS} {n p : Nat} (h : getPrecedence U toks ps n = .ok p) : p ≤ usizeMax := by
  unfold getPrecedence at h
  repeat' (split at h)
  all_goals first | cases h | skip
  all_goals first | exact precTable_le _ | simp [usizeMax]

theorem holds_saturate {F : List Fact} {s : St} (h : Holds U toks F s) : Holds U toks (saturate F) s := by
  unfold saturate
  split
  · next hf =>
    obtain ⟨p, h1, h2⟩ := h _ hf
    unfold getPrecedence at h1
    have key : ∃ t, getToken toks s.ps 1 = .ok t ∧ t.inKws U finWords = true ∧
        (t.inKws U [.NOT] = true → ∃ t', getToken toks s.ps 2 = .ok t' ∧ t'.inKws U [.IN, .LIKE, .BETWEEN] = true) := by
      cases ht : getToken toks s.ps 1 with
      | ok t =>
        rw [ht] at h1
        dsimp only at h1
        refine ⟨t, rfl, ?_, ?_⟩
        · split at h1
          · next hn =>
            simp only [Token.inKws, List.any_cons, List.any_nil, Bool.or_false] at hn
            simp only [Token.inKws, finWords, List.any_cons, hn, Bool.or_true, Bool.true_or]
          · cases h1; exact precTable_fin h2
        · intro hn
          rw [if_pos hn] at h1
          cases ht' : getToken toks s.ps (1 + 1) with
          | ok t' =>
            rw [ht'] at h1
            dsimp only at h1
            split at h1
            · next hi => exact ⟨t', rfl, hi⟩
            · split at h1
              · cases h1; omega
              · cases h1
          | err e => rw [ht'] at h1; cases h1
          | panic p => rw [ht'] at h1; cases h1
          | timeout => rw [ht'] at h1; cases h1
      | err e => rw [ht] at h1; cases h1
      | panic p => rw [ht] at h1; cases h1
      | timeout => rw [ht] at h1; cases h1
    obtain ⟨t, k1, k2, k3⟩ := key
    intro f hm
    simp only [List.mem_cons, List.mem_append] at hm
    rcases hm with rfl | hm | hm
    · exact ⟨1, t, rfl, k1, k2⟩
    · split at hm
      · next hN =>
        simp only [List.mem_cons, List.not_mem_nil, or_false] at hm
        subst hm
        obtain ⟨n, u, e1, e2, e3⟩ := h _ hN
        cases e1
        rw [k1] at e2; cases e2
        obtain ⟨t', e4, e5⟩ := k3 e3
        exact ⟨2, t', rfl, e4, e5⟩
      · cases hm
    · exact h f hm
  · exact h

theorem holds_shift {F : List Fact} {s : St} {ps' : PS} (h : Holds U toks F s)
    (hn : nextToken toks s.ps = .ok ps') : Holds U toks (shift F) { s with ps := ps' } := by
  intro f hf
  obtain ⟨g, hg, hs⟩ := List.mem_filterMap.1 hf
  have := holds_saturate h g hg
  unfold shift1 at hs
  split at hs
  · cases hs
    obtain ⟨n, t, h1, h2, h3⟩ := this
    cases h1
    exact ⟨_, t, rfl, by rw [next_tok hn]; exact h2, h3⟩
  · cases hs

theorem holds_entails {F : List Fact} {s : St} (h : Holds U toks F s) {f : Fact} (he : entails F f = true) :
    f.Holds U toks s.env s.ps := by
  unfold entails at he
  split at he
  · next o ks =>
    simp only [Bool.and_eq_true, Bool.not_eq_true', List.isEmpty_eq_false_iff, List.all_eq_true, List.any_eq_true] at he
    obtain ⟨hne, he⟩ := he
    have key : ∀ k ∈ ks, ∃ n t, evalOff s.env o = .ok n ∧ getToken toks s.ps n = .ok t ∧ (t.upper U == k.lit) = false := by
      intro k hk
      obtain ⟨g, hg, hh⟩ := he k hk
      cases g with
      | fin => simp at hh
      | tok o' ks' b =>
        simp only [Bool.and_eq_true, beq_iff_eq, Bool.not_eq_true', List.contains_eq_mem, decide_eq_true_eq] at hh
        obtain ⟨⟨rfl, rfl⟩, hk'⟩ := hh
        obtain ⟨n, t, h1, h2, h3⟩ := h _ hg
        refine ⟨n, t, h1, h2, ?_⟩
        simp only [Token.inKws, List.any_eq_false, Bool.not_eq_true] at h3
        exact h3 k hk'
    obtain ⟨k, hk⟩ := List.exists_mem_of_ne_nil _ hne
    obtain ⟨n, t, h1, h2, _⟩ := key k hk
    refine ⟨n, t, h1, h2, ?_⟩
    simp only [Token.inKws, List.any_eq_false, Bool.not_eq_true]
    intro k' hk'
    obtain ⟨n', t', h1', h2', h3'⟩ := key k' hk'
    rw [h1] at h1'; cases h1'
    rw [h2] at h2'; cases h2'
    exact h3'
  · next o ks =>
    simp only [List.any_eq_true] at he
    obtain ⟨g, hg, hh⟩ := he
    cases g with
    | fin => simp at hh
    | tok o' ks' b =>
      simp only [Bool.and_eq_true, beq_iff_eq, List.all_eq_true, List.contains_eq_mem, decide_eq_true_eq] at hh
      obtain ⟨⟨rfl, rfl⟩, hk⟩ := hh
      obtain ⟨n, t, h1, h2, h3⟩ := h _ hg
      refine ⟨n, t, h1, h2, ?_⟩
      simp only [Token.inKws, List.any_eq_true] at h3 ⊢
      obtain ⟨k, h4, h5⟩ := h3
      exact ⟨k, hk k h4, h5⟩
  · exact h _ (by simpa using he)

theorem not_contradictory {F : List Fact} {s : St} (h : Holds U toks F s) : contradictory F = false := by
  rw [Bool.eq_false_iff]
  intro hc
  simp only [contradictory, List.any_eq_true] at hc
  obtain ⟨g, hg, hh⟩ := hc
  cases g with
  | fin => simp at hh
  | tok o ks b =>
    cases b with
    | false => simp at hh
    | true =>
      obtain ⟨n, t, h1, h2, h3⟩ := h _ hg
      obtain ⟨n', t', h1', h2', h3'⟩ := holds_entails h hh
      rw [h1] at h1'; cases h1'
      rw [h2] at h2'; cases h2'
      rw [h3] at h3'; cases h3'

/-! ### Errors -/

/-- A justified error: the end of the input; a `NOT` that is followed by something else than `IN`, `LIKE`,
`BETWEEN` or `ENFORCED`; a `fail` whose claim holds. -/
inductive Good (U : Unicode) (toks : List Token) : Err → Prop
  | eof {t : Token} (h : toks.getLast? = some t) : Good U toks ⟨t.line, t.column, .followedByEof⟩
  | prec {ps : PS} {n : Nat} {a t : Token} (ha : getToken toks ps n = .ok a) (hn : a.inKws U [.NOT] = true)
      (ht : getToken toks ps (n + 1) = .ok t) (h : t.inKws U [.IN, .LIKE, .BETWEEN, .ENFORCED] = false) :
      Good U toks ⟨t.line, t.column, .site 133 t.literal⟩
  | site {ps : PS} {n k : Nat} {l : List Fact} {t : Token} (hc : claim n = .facts k l)
      (ht : getToken toks ps k = .ok t) (h : ∀ f ∈ l, ∀ env, f.isLit = true → f.Holds U toks env ps) :
      Good U toks ⟨t.line, t.column, .site n t.literal⟩

theorem good_offset {ps : PS} {n : Nat} {e : Err} (h : getOffsetIndex toks ps n = .err e) : Good U toks e := by
  unfold getOffsetIndex at h
  repeat' (split at h)
  all_goals cases h
  next hl => exact .eof hl

theorem tokAt_ne_err {i : Nat} {e : Err} : tokAt toks i ≠ .err e := by
  unfold tokAt; split <;> simp

theorem good_token {ps : PS} {n : Nat} {e : Err} (h : getToken toks ps n = .err e) : Good U toks e := by
  unfold getToken at h
  split at h
  · exact absurd h tokAt_ne_err
  · next hh => cases h; exact good_offset hh
  · cases h
  · cases h

theorem good_prec {ps : PS} {n : Nat} {e : Err} (h : getPrecedence U toks ps n = .err e) : Good U toks e := by
  unfold getPrecedence at h
  split at h
  · next hh => cases h; exact good_token hh
  · cases h
  · cases h
  · next t ht =>
    split at h
    · next hn =>
      split at h
      · next hh => cases h; exact good_token hh
      · cases h
      · cases h
      · next t1 ht1 =>
        split at h
        · cases h
        · next h1 =>
          split at h
          · cases h
          · next h2 =>
            cases h
            refine .prec ht hn ht1 ?_
            simp only [Token.inKws, List.any_cons, List.any_nil, Bool.or_false, Bool.or_eq_true, not_or,
              Bool.not_eq_true, Bool.or_eq_false_iff] at h1 h2 ⊢
            exact ⟨h1.1, h1.2.1, h1.2.2, h2⟩
    · cases h

theorem good_next {ps : PS} {e : Err} (h : nextToken toks ps = .err e) : Good U toks e := by
  unfold nextToken at h
  split at h
  · next hh => cases h; exact good_offset hh
  · cases h
  · cases h
  · dsimp only at h
    split at h
    · split at h
      · cases h
      · next hh => exact absurd hh tokAt_ne_err
      · cases h
      · cases h
    · cases h

theorem attach_ne_err {ps : PS} {n : Node} {e : Err} : attachComments toks ps n ≠ .err e := by
  unfold attachComments; split <;> simp

theorem good_construct {ps : PS} {nt : NodeType} {e : Err} (h : construct U toks ps nt = .err e) :
    Good U toks e := by
  unfold construct at h
  split at h
  · next hh => cases h; exact good_token hh
  · cases h
  · cases h
  · split at h
    · exact absurd h attach_ne_err
    · split at h
      · split at h
        · exact absurd h attach_ne_err
        · next hc =>
          cases h
          unfold classify at hc
          repeat' (split at hc)
          all_goals cases hc
          next hh => exact good_token hh
        · cases h
        · cases h
      · exact absurd h attach_ne_err

theorem bind_err_cases {α β : Type} {x : Out α} {f : α → Out β} {e : Err} (h : (x >>= f) = .err e) :
    x = .err e ∨ ∃ a, x = .ok a ∧ f a = .err e := by
  cases x with
  | ok a => exact .inr ⟨a, rfl, h⟩
  | err e' => left; simpa using h
  | panic p => cases h
  | timeout => cases h

theorem bind_ok_cases {α β : Type} {x : Out α} {f : α → Out β} {b : β} (h : (x >>= f) = .ok b) :
    ∃ a, x = .ok a ∧ f a = .ok b := by
  cases x with
  | ok a => exact ⟨a, rfl, h⟩
  | err e' => cases h
  | panic p => cases h
  | timeout => cases h

theorem evalOff_ne_err {env : Env} {o : Off} {e : Err} : evalOff env o ≠ .err e := by
  cases o <;> simp [evalOff]
  split <;> simp

variable {C : Ctx}

theorem good_offTok {s : St} {o : Off} {e : Err} (h : offTok C s o = .err e) : Good U C.toks e := by
  unfold offTok at h
  split at h
  · exact good_token h
  · next hh => exact absurd hh evalOff_ne_err
  · cases h
  · cases h

theorem offTok_ok {s : St} {o : Off} {t : Token} (h : offTok C s o = .ok t) :
    ∃ n, evalOff s.env o = .ok n ∧ getToken C.toks s.ps n = .ok t := by
  unfold offTok at h
  split at h
  · next n hn => exact ⟨n, hn, h⟩
  · cases h
  · cases h
  · cases h

theorem good_cond {s : St} : ∀ {c : Cond} {e : Err}, evalCond C s c = .err e → Good C.U C.toks e
  | .up .., e, h | .raw .., e, h | .isIdent .., e, h | .isStr .., e, h | .isNum .., e, h => by
    simp only [evalCond] at h
    rcases bind_err_cases h with h | ⟨_, _, h⟩
    · exact good_offTok h
    · cases h
  | .upVar .., e, h => by
    simp only [evalCond] at h
    rcases bind_err_cases h with h | ⟨_, _, h⟩
    · exact good_offTok h
    · split at h <;> cases h
  | .eof .., e, h => by
    simp only [evalCond] at h
    rcases bind_err_cases h with h | ⟨_, _, h⟩
    · exact absurd h evalOff_ne_err
    · cases h
  | .hasTok .., e, h => by
    simp only [evalCond] at h
    rcases bind_err_cases h with h | ⟨_, _, h⟩
    · exact absurd h evalOff_ne_err
    · split at h <;> cases h
  | .bvar .., e, h | .lenPos .., e, h | .lenOne .., e, h | .strIs .., e, h | .typeIs .., e, h
  | .leftmostIs .., e, h | .hasAnyKey .., e, h => by
    simp only [evalCond] at h
    split at h <;> cases h
  | .const .., e, h => by simp only [evalCond] at h; cases h
  | .precLt .., e, h => by
    simp only [evalCond] at h
    rcases bind_err_cases h with h | ⟨_, _, h⟩
    · exact good_prec h
    · split at h <;> cases h
  | .firstCharIs .., e, h | .lastCharIs .., e, h => by
    simp only [evalCond] at h
    rcases bind_err_cases h with h | ⟨_, _, h⟩
    · exact good_token h
    · split at h <;> cases h
  | .adjacent, e, h => by
    simp only [evalCond] at h
    rcases bind_err_cases h with h | ⟨_, _, h⟩
    · exact good_token h
    · rcases bind_err_cases h with h | ⟨_, _, h⟩
      · exact good_token h
      · cases h
  | .and a b, e, h => by
    simp only [evalCond] at h
    rcases bind_err_cases h with h | ⟨_, _, h⟩
    · exact good_cond h
    · split at h
      · exact good_cond h
      · cases h
  | .or a b, e, h => by
    simp only [evalCond] at h
    rcases bind_err_cases h with h | ⟨_, _, h⟩
    · exact good_cond h
    · split at h
      · cases h
      · exact good_cond h
  | .not a, e, h => by
    simp only [evalCond] at h
    rcases bind_err_cases h with h | ⟨_, _, h⟩
    · exact good_cond h
    · cases h

theorem holds_cond {s : St} (hi : NatInv s.env) : ∀ {c : Cond} {b : Bool}, evalCond C s c = .ok b →
    Holds C.U C.toks (condFacts b c) s
  | .up o ks, b, h => by
    simp only [evalCond] at h
    obtain ⟨t, h1, h2⟩ := bind_ok_cases h
    obtain ⟨n, h3, h4⟩ := offTok_ok h1
    cases h2
    intro f hf
    simp only [condFacts, List.mem_cons, List.not_mem_nil, or_false] at hf
    subst hf
    exact ⟨n, t, h3, h4, rfl⟩
  | .raw .., b, h | .upVar .., b, h | .isIdent .., b, h | .isStr .., b, h | .isNum .., b, h | .eof .., b, h
  | .hasTok .., b, h | .bvar .., b, h | .const .., b, h | .lenPos .., b, h | .lenOne .., b, h | .strIs .., b, h
  | .typeIs .., b, h | .leftmostIs .., b, h | .hasAnyKey .., b, h | .firstCharIs .., b, h | .lastCharIs .., b, h
  | .adjacent, b, h => by
    cases b <;> exact Holds.nil
  | .precLt x, false, h => Holds.nil
  | .precLt x, true, h => by
    simp only [condFacts]
    split
    · next hx =>
      simp only [evalCond] at h
      obtain ⟨p, h1, h2⟩ := bind_ok_cases h
      split at h2
      · next n hn =>
        simp only [Out.ok.injEq, decide_eq_true_eq] at h2
        have := hi x hx n hn
        intro f hf
        simp only [List.mem_cons, List.not_mem_nil, or_false] at hf
        subst hf
        exact ⟨p, h1, by omega⟩
      · cases h2
    · exact Holds.nil
  | .and a b, false, h => Holds.nil
  | .and a b, true, h => by
    simp only [evalCond] at h
    obtain ⟨x, h1, h2⟩ := bind_ok_cases h
    split at h2
    · next hx => subst hx; exact (holds_cond hi h1).append (holds_cond hi h2)
    · cases h2
  | .or a b, true, h => Holds.nil
  | .or a b, false, h => by
    simp only [evalCond] at h
    obtain ⟨x, h1, h2⟩ := bind_ok_cases h
    split at h2
    · cases h2
    · next hx =>
      rw [Bool.not_eq_true] at hx
      subst hx; exact (holds_cond hi h1).append (holds_cond hi h2)
  | .not a, b, h => by
    simp only [evalCond] at h
    obtain ⟨x, h1, h2⟩ := bind_ok_cases h
    cases h2
    simp only [condFacts, Bool.not_not]
    exact holds_cond hi h1

/-! ### Calls -/

/-- Values for parameters that are binding strengths are bounded. -/
def ArgsGood : List Var → List Val → Prop
  | x :: xs, v :: vs => (precVars.contains x = false ∨ ∀ n, v = .nat n → n ≤ usizeMax) ∧ ArgsGood xs vs
  | _, _ => True

theorem bindParams_inv : ∀ {xs : List Var} {vs : List Val}, ArgsGood xs vs → NatInv (bindParams xs vs)
  | [], _, _ => by intro x hx n hn; cases hn
  | _ :: _, [], _ => by intro x hx n hn; cases hn
  | x :: xs, v :: vs, h => by
    simp only [ArgsGood] at h
    exact (bindParams_inv h.2).set h.1

theorem evalAtom_good {env : Env} (hi : NatInv env) {a : Atom} (hg : goodAtom a = true) {v : Val}
    (h : evalAtom env a = .ok v) : ∀ n, v = .nat n → n ≤ usizeMax := by
  rintro n rfl
  unfold goodAtom at hg
  split at hg
  · simp only [evalAtom] at h; cases h; simpa using hg
  · next x =>
    simp only [evalAtom, Out.ok.injEq] at h
    exact hi x (by simpa using hg) n h
  · cases hg

theorem argsOk_good {env : Env} (hi : NatInv env) : ∀ {xs : List Var} {as : List Atom} {vs : List Val},
    argsOk xs as = true → evalAtoms env as = .ok vs → ArgsGood xs vs
  | [], _, _, _, _ => by simp [ArgsGood]
  | _ :: _, [], vs, _, h => by
    simp only [evalAtoms] at h; cases h; simp [ArgsGood]
  | x :: xs, a :: as, vs, ho, h => by
    simp only [evalAtoms] at h
    obtain ⟨v, h1, h2⟩ := bind_ok_cases h
    obtain ⟨ws, h3, h4⟩ := bind_ok_cases h2
    cases h4
    simp only [argsOk, Bool.and_eq_true, Bool.or_eq_true, Bool.not_eq_true'] at ho
    refine ⟨?_, argsOk_good hi ho.2 h3⟩
    rcases ho.1 with hx | hg
    · exact .inl hx
    · exact .inr (evalAtom_good hi hg h1)

theorem evalAtom_ne_err {env : Env} {a : Atom} {e : Err} : evalAtom env a ≠ .err e := by
  cases a <;> simp [evalAtom]
  all_goals split <;> simp

theorem evalAtoms_ne_err {env : Env} : ∀ {as : List Atom} {e : Err}, evalAtoms env as ≠ .err e
  | [], e => by simp [evalAtoms]
  | a :: as, e => by
    intro h
    simp only [evalAtoms] at h
    rcases bind_err_cases h with h | ⟨_, _, h⟩
    · exact evalAtom_ne_err h
    · rcases bind_err_cases h with h | ⟨_, _, h⟩
      · exact evalAtoms_ne_err h
      · cases h

/-- Calls fail with justified errors. -/
def CallGood (C : Ctx) : Prop := ∀ f vs ps e, ArgsGood (Program.defs f).params vs → C.call f vs ps = .err e →
  Good C.U C.toks e

theorem good_exp (hC : CallGood C) {s : St} (hi : NatInv s.env) {x : Exp} (ho : expOk x = true) {e : Err}
    (h : evalExp C s x = .err e) : Good C.U C.toks e := by
  cases x with
  | var x => simp only [evalExp] at h; cases h
  | construct nt =>
    simp only [evalExp] at h
    rcases bind_err_cases h with h | ⟨_, _, h⟩
    · exact good_construct h
    · cases h
  | empty nt => simp only [evalExp] at h; cases h
  | call f args =>
    simp only [evalExp] at h
    rcases bind_err_cases h with h | ⟨vs, hv, h⟩
    · exact absurd h evalAtoms_ne_err
    · rcases bind_err_cases h with h | ⟨_, _, h⟩
      · exact hC f vs _ e (argsOk_good hi ho hv) h
      · cases h
  | nilVec => simp only [evalExp] at h; cases h
  | pop x =>
    simp only [evalExp] at h
    repeat' (split at h)
    all_goals cases h
  | prec o =>
    simp only [evalExp] at h
    rcases bind_err_cases h with h | ⟨vs, hv, h⟩
    · exact absurd h evalOff_ne_err
    · rcases bind_err_cases h with h | ⟨_, _, h⟩
      · exact good_prec h
      · cases h
  | natLit n => simp only [evalExp] at h; cases h
  | boolLit b => simp only [evalExp] at h; cases h
  | kws ks => simp only [evalExp] at h; cases h
  | upperLit o =>
    simp only [evalExp] at h
    rcases bind_err_cases h with h | ⟨_, _, h⟩
    · exact good_offTok h
    · cases h
  | cond c =>
    simp only [evalExp] at h
    rcases bind_err_cases h with h | ⟨_, _, h⟩
    · exact good_cond h
    · cases h

/-- Evaluation keeps the invariant, and the place unless a function is called. -/
theorem exp_state {s s' : St} (hi : NatInv s.env) {x : Exp} {v : Val} (h : evalExp C s x = .ok (v, s')) :
    NatInv s'.env ∧ (isPure x = true → s'.ps = s.ps) ∧ (goodExp x = true → ∀ n, v = .nat n → n ≤ usizeMax) := by
  cases x with
  | var x => simp only [evalExp] at h; cases h; exact ⟨hi, fun _ => rfl, fun h => by simp [goodExp] at h⟩
  | construct nt =>
    simp only [evalExp] at h
    obtain ⟨_, _, h⟩ := bind_ok_cases h
    cases h; exact ⟨hi, fun _ => rfl, fun h => by simp [goodExp] at h⟩
  | empty nt => simp only [evalExp] at h; cases h; exact ⟨hi, fun _ => rfl, fun h => by simp [goodExp] at h⟩
  | call f args =>
    simp only [evalExp] at h
    obtain ⟨_, _, h⟩ := bind_ok_cases h
    obtain ⟨_, _, h⟩ := bind_ok_cases h
    cases h; exact ⟨hi, fun h => by simp [isPure] at h, fun h => by simp [goodExp] at h⟩
  | nilVec => simp only [evalExp] at h; cases h; exact ⟨hi, fun _ => rfl, fun h => by simp [goodExp] at h⟩
  | pop x =>
    simp only [evalExp] at h
    repeat' (split at h)
    all_goals cases h
    exact ⟨hi.set (.inr (by simp)), fun _ => rfl, fun h => by simp [goodExp] at h⟩
  | prec o =>
    simp only [evalExp] at h
    obtain ⟨_, _, h⟩ := bind_ok_cases h
    obtain ⟨_, hp, h⟩ := bind_ok_cases h
    cases h
    refine ⟨hi, fun _ => rfl, fun _ n hn => ?_⟩
    cases hn
    exact getPrecedence_le hp
  | natLit n =>
    simp only [evalExp] at h; cases h
    refine ⟨hi, fun _ => rfl, fun hg m hm => ?_⟩
    cases hm
    simpa [goodExp] using hg
  | boolLit b => simp only [evalExp] at h; cases h; exact ⟨hi, fun _ => rfl, fun h => by simp [goodExp] at h⟩
  | kws ks => simp only [evalExp] at h; cases h; exact ⟨hi, fun _ => rfl, fun h => by simp [goodExp] at h⟩
  | upperLit o =>
    simp only [evalExp] at h
    obtain ⟨_, _, h⟩ := bind_ok_cases h
    cases h; exact ⟨hi, fun _ => rfl, fun h => by simp [goodExp] at h⟩
  | cond c =>
    simp only [evalExp] at h
    obtain ⟨_, _, h⟩ := bind_ok_cases h
    cases h; exact ⟨hi, fun _ => rfl, fun h => by simp [goodExp] at h⟩

theorem holds_assign {F : List Fact} {s s' : St} {x : Exp} (hF : Holds C.U C.toks F s)
    (hp : isPure x = true → s'.ps = s.ps) (env : Env) :
    Holds C.U C.toks (afterAssign F x) { s' with env := env } := by
  unfold afterAssign
  split
  · next h =>
    rw [hp h]
    exact hF.lit env
  · exact Holds.nil

/-- What a command does to facts. -/
structure Sound (C : Ctx) (r : Out (Flow × St)) (P : Option (List Fact)) : Prop where
  err : ∀ e, r = .err e → Good C.U C.toks e
  inv : ∀ fl s', r = .ok (fl, s') → NatInv s'.env
  norm : ∀ s', r = .ok (.norm, s') → ∃ G, P = some G ∧ Holds C.U C.toks G s'

theorem Sound.weaken {r : Out (Flow × St)} {P Q : Option (List Fact)} (h : Sound C r P)
    (hq : ∀ G, P = some G → ∃ H, Q = some H ∧ ∀ f ∈ H, f ∈ G) : Sound C r Q where
  err := h.err
  inv := h.inv
  norm s' hs := by
    obtain ⟨G, h1, h2⟩ := h.norm s' hs
    obtain ⟨H, h3, h4⟩ := hq G h1
    exact ⟨H, h3, fun f hf => h2 f (h4 f hf)⟩

theorem sound_iterate {f : St → Out (Flow × St)} (hf : ∀ s, NatInv s.env → ∃ P, Sound C (f s) P) :
    ∀ (n : Nat) (s : St), NatInv s.env → Sound C (iterate f n s) (some []) := by
  intro n
  induction n with
  | zero => intro s hs; exact ⟨by simp [iterate], by simp [iterate], by simp [iterate]⟩
  | succ n ih =>
    intro s hs
    obtain ⟨P, hP⟩ := hf s hs
    simp only [iterate]
    cases h : f s with
    | ok r =>
      obtain ⟨fl, s'⟩ := r
      have hi := hP.inv fl s' h
      cases fl with
      | norm => exact ih s' hi
      | brk => exact ⟨by simp, by rintro fl s'' h; cases h; exact hi, by rintro s'' h; exact ⟨[], rfl, Holds.nil⟩⟩
      | ret v => exact ⟨by simp, by rintro fl s'' h; cases h; exact hi, by rintro s'' h; cases h⟩
    | err e => exact ⟨by rintro e' h'; cases h'; exact hP.err e h, by simp, by simp⟩
    | panic p => exact ⟨by simp, by simp, by simp⟩
    | timeout => exact ⟨by simp, by simp, by simp⟩

theorem sound_scan {f : St → Out (Flow × St)} (hf : ∀ s, NatInv s.env → ∃ P, Sound C (f s) P) {x : Var}
    (hx : precVars.contains x = false) {d : St → Out (Flow × St)}
    (hd : ∀ s, NatInv s.env → Sound C (d s) (some [])) :
    ∀ (n i : Nat) (s : St), NatInv s.env → Sound C (scanLoop f x d n i s) (some []) := by
  intro n
  induction n with
  | zero => intro i s hs; exact hd s hs
  | succ n ih =>
    intro i s hs
    obtain ⟨P, hP⟩ := hf { s with env := s.env.set x (.nat i) } (hs.set (.inl hx))
    simp only [scanLoop]
    cases h : f { s with env := s.env.set x (.nat i) } with
    | ok r =>
      obtain ⟨fl, s'⟩ := r
      have hi := hP.inv fl s' h
      cases fl with
      | norm => exact ih _ s' hi
      | brk => exact ⟨by simp, by rintro fl s'' h; cases h; exact hi, by rintro s'' h; exact ⟨[], rfl, Holds.nil⟩⟩
      | ret v => exact ⟨by simp, by rintro fl s'' h; cases h; exact hi, by rintro s'' h; cases h⟩
    | err e => exact ⟨by rintro e' h'; cases h'; exact hP.err e h, by simp, by simp⟩
    | panic p => exact ⟨by simp, by simp, by simp⟩
    | timeout => exact ⟨by simp, by simp, by simp⟩

theorem still_exec : ∀ (c : Cmd) (s s' : St) (fl : Flow), still c = true → exec C c s = .ok (fl, s') →
    (fl = .norm → s' = s) ∧ fl ≠ .brk := by
  intro c
  induction c with
  | skip => intro s s' fl _ h; simp only [exec] at h; cases h; simp
  | seq a b iha ihb =>
    intro s s' fl hc h
    simp only [still, Bool.and_eq_true] at hc
    simp only [exec] at h
    split at h
    · next s1 h1 =>
      obtain ⟨e1, -⟩ := iha _ _ _ hc.1 h1
      rw [e1 rfl] at h
      exact ihb _ _ _ hc.2 h
    · next hne =>
      have := iha _ _ _ hc.1 h
      refine ⟨fun hf => ?_, this.2⟩
      subst hf
      exact absurd h (hne _)
  | ite c a b iha ihb =>
    intro s s' fl hc h
    simp only [still, Bool.and_eq_true] at hc
    simp only [exec] at h
    split at h
    · exact iha _ _ _ hc.1 h
    · exact ihb _ _ _ hc.2 h
    · cases h
    · cases h
    · cases h
  | ret e =>
    intro s s' fl _ h
    simp only [exec] at h
    obtain ⟨⟨v, s1⟩, _, h⟩ := bind_ok_cases h
    cases h; simp
  | fail o n =>
    intro s s' fl _ h
    simp only [exec] at h
    obtain ⟨t, _, h⟩ := bind_ok_cases h
    cases h
  | _ => intro s s' fl hc h; cases hc

theorem sound_scan_still {f : St → Out (Flow × St)} {G : List Fact}
    (hf : ∀ s, NatInv s.env → Sound C (f s) (some G))
    (hs : ∀ s fl s', f s = .ok (fl, s') → (fl = .norm → s' = s) ∧ fl ≠ .brk) {x : Var}
    (hx : precVars.contains x = false) {F : List Fact} :
    ∀ (n i : Nat) (s : St), NatInv s.env → Holds C.U C.toks F s →
      Sound C (scanLoop f x (fun s => .ok (.norm, s)) n i s) (some (insts x G i n ++ F.filter Fact.isLit)) := by
  intro n
  induction n generalizing F with
  | zero =>
    intro i s hi hF
    refine ⟨by simp [scanLoop], by rintro fl s' h; cases h; exact hi, ?_⟩
    rintro s' h
    cases h
    exact ⟨_, rfl, by simpa [insts] using hF.lit s.env⟩
  | succ n ih =>
    intro i s hi hF
    have hi' : NatInv (s.env.set x (.nat i)) := hi.set (.inl hx)
    have hP := hf { s with env := s.env.set x (.nat i) } hi'
    simp only [scanLoop]
    cases h : f { s with env := s.env.set x (.nat i) } with
    | ok r =>
      obtain ⟨fl, s'⟩ := r
      have hst := hs _ _ _ h
      cases fl with
      | norm =>
        have e := hst.1 rfl
        subst e
        obtain ⟨G', hG, hG'⟩ := hP.norm _ h
        cases hG
        have hinst : Holds C.U C.toks (G.filterMap (inst x i)) { s with env := s.env.set x (.nat i) } := by
          intro g hg
          obtain ⟨g0, h0, h1⟩ := List.mem_filterMap.1 hg
          have := hG' g0 h0
          unfold inst at h1
          split at h1
          · split at h1
            · next y k ks b e =>
              subst e
              cases h1
              obtain ⟨m, t, e1, e2, e3⟩ := this
              simp only [evalOff, Env.set, if_true] at e1
              cases e1
              exact ⟨_, t, rfl, e2, e3⟩
            · cases h1
          · cases h1
        have hlit : ∀ g ∈ G.filterMap (inst x i), g.isLit = true := by
          intro g hg
          obtain ⟨g0, h0, h1⟩ := List.mem_filterMap.1 hg
          unfold inst at h1
          split at h1
          · split at h1
            · cases h1; rfl
            · cases h1
          · cases h1
        have := ih (F := G.filterMap (inst x i) ++ F.filter Fact.isLit) (i + 1) _ hi'
          (hinst.append (hF.lit (s.env.set x (.nat i))))
        refine this.weaken ?_
        rintro _ ⟨⟩
        refine ⟨_, rfl, ?_⟩
        intro g hg
        simp only [insts, List.append_assoc, List.mem_append, List.mem_filter] at hg ⊢
        rcases hg with hg | hg | hg
        · exact .inr ⟨.inl hg, hlit g hg⟩
        · exact .inl hg
        · exact .inr ⟨.inr hg, hg.2⟩
      | brk => exact absurd rfl hst.2
      | ret v =>
        exact ⟨by simp, by rintro fl s'' h'; cases h'; exact hP.inv _ _ h, by rintro s'' h; cases h⟩
    | err e => exact ⟨by rintro e' h'; cases h'; exact hP.err e h, by simp, by simp⟩
    | panic p => exact ⟨by simp, by simp, by simp⟩
    | timeout => exact ⟨by simp, by simp, by simp⟩

theorem sound_drain {f : St → Out (Flow × St)} (hf : ∀ s, NatInv s.env → ∃ P, Sound C (f s) P) {x : Var} :
    ∀ (ns : List Node) (s : St), NatInv s.env → Sound C (drainLoop f x ns s) (some []) := by
  intro ns
  induction ns with
  | nil => intro s hs; exact ⟨by simp [drainLoop], by rintro fl s' h; cases h; exact hs, by rintro s'' h; exact ⟨[], rfl, Holds.nil⟩⟩
  | cons m ns ih =>
    intro s hs
    obtain ⟨P, hP⟩ := hf { s with env := s.env.set x (.node m) } (hs.set (.inr (by simp)))
    simp only [drainLoop]
    cases h : f { s with env := s.env.set x (.node m) } with
    | ok r =>
      obtain ⟨fl, s'⟩ := r
      have hi := hP.inv fl s' h
      cases fl with
      | norm => exact ih s' hi
      | brk => exact ⟨by simp, by rintro fl s'' h; cases h; exact hi, by rintro s'' h; exact ⟨[], rfl, Holds.nil⟩⟩
      | ret v => exact ⟨by simp, by rintro fl s'' h; cases h; exact hi, by rintro s'' h; cases h⟩
    | err e => exact ⟨by rintro e' h'; cases h'; exact hP.err e h, by simp, by simp⟩
    | panic p => exact ⟨by simp, by simp, by simp⟩
    | timeout => exact ⟨by simp, by simp, by simp⟩

/-- Commands that assign the value of an expression. -/
theorem sound_assign (hC : CallGood C) {F : List Fact} {s : St} {x : Exp} (hi : NatInv s.env)
    (hF : Holds C.U C.toks F s) (ho : expOk x = true) {k : Val × St → Out (Flow × St)}
    (hk : ∀ v s', (goodExp x = true → ∀ n, v = .nat n → n ≤ usizeMax) → NatInv s'.env →
      (∃ p, k (v, s') = .panic p) ∨ ∃ env, NatInv env ∧ k (v, s') = .ok (.norm, { s' with env := env })) :
    Sound C (evalExp C s x >>= k) (some (afterAssign F x)) := by
  refine ⟨?_, ?_, ?_⟩
  · intro e he
    rcases bind_err_cases he with h | ⟨⟨v, s'⟩, h1, h2⟩
    · exact good_exp hC hi ho h
    · obtain ⟨hi', _, hg⟩ := exp_state hi h1
      rcases hk v s' hg hi' with ⟨p, hp⟩ | ⟨env, _, hp⟩ <;> rw [hp] at h2 <;> cases h2
  · intro fl s'' he
    obtain ⟨⟨v, s'⟩, h1, h2⟩ := bind_ok_cases he
    obtain ⟨hi', _, hg⟩ := exp_state hi h1
    rcases hk v s' hg hi' with ⟨p, hp⟩ | ⟨env, hen, hp⟩ <;> rw [hp] at h2 <;> cases h2
    exact hen
  · intro s'' he
    obtain ⟨⟨v, s'⟩, h1, h2⟩ := bind_ok_cases he
    obtain ⟨hi', hpu, hg⟩ := exp_state hi h1
    rcases hk v s' hg hi' with ⟨p, hp⟩ | ⟨env, he, hp⟩ <;> rw [hp] at h2 <;> cases h2
    exact ⟨_, rfl, holds_assign hF hpu env⟩

theorem sound_exec (hC : CallGood C) : ∀ (c : Cmd) (F : List Fact) (s : St), ok F c = true → NatInv s.env →
    Holds C.U C.toks F s → Sound C (exec C c s) (post F c) := by
  intro c
  induction c with
  | skip =>
    intro F s _ hi hF
    simp only [exec, post]
    exact ⟨by simp, by rintro fl s' h; cases h; exact hi, by rintro s' h; cases h; exact ⟨F, rfl, hF⟩⟩
  | seq a b iha ihb =>
    intro F s ho hi hF
    simp only [ok, Bool.and_eq_true] at ho
    have ha := iha F s ho.1 hi hF
    simp only [exec, post]
    split
    · next s1 h1 =>
      obtain ⟨G, hG, hG'⟩ := ha.norm s1 h1
      rw [hG] at ho ⊢
      exact ihb G s1 ho.2 (ha.inv _ _ h1) hG'
    · next hne =>
      refine ⟨ha.err, ha.inv, ?_⟩
      intro s' h
      exact absurd h (hne s')
  | next =>
    intro F s _ hi hF
    simp only [exec, post]
    refine ⟨?_, ?_, ?_⟩
    · intro e he
      rcases bind_err_cases he with h | ⟨_, _, h⟩
      · exact good_next h
      · cases h
    · intro fl s' he
      obtain ⟨ps', _, h⟩ := bind_ok_cases he
      cases h; exact hi
    · intro s' he
      obtain ⟨ps', h1, h⟩ := bind_ok_cases he
      cases h
      exact ⟨_, rfl, holds_shift hF h1⟩
  | set x e =>
    intro F s ho hi hF
    simp only [ok, Bool.and_eq_true, Bool.or_eq_true, Bool.not_eq_true'] at ho
    simp only [exec, post]
    refine sound_assign hC hi hF ho.1 (k := fun p => .ok (.norm, { p.2 with env := p.2.env.set x p.1 })) ?_
    intro v s' hg hi'
    refine .inr ⟨_, hi'.set ?_, rfl⟩
    rcases ho.2 with h | h
    · exact .inl h
    · exact .inr (hg h)
  | push x k e =>
    intro F s ho hi hF
    simp only [exec, post]
    refine sound_assign hC hi hF ho (k := fun p => match p.2.env x, p.1 with
      | .node n, .node c => .ok (.norm, { p.2 with env := p.2.env.set x (.node (n.pushNode k c)) })
      | _, _ => .panic .stuck) ?_
    intro v s' _ hi'
    dsimp only
    split
    · exact .inr ⟨_, hi'.set (.inr (by simp)), rfl⟩
    · exact .inl ⟨_, rfl⟩
  | pushVec x k e =>
    intro F s ho hi hF
    simp only [exec, post]
    refine sound_assign hC hi hF ho (k := fun p => match p.2.env x, p.1 with
      | .node n, .vec c => .ok (.norm, { p.2 with env := p.2.env.set x (.node (n.pushVec k c)) })
      | _, _ => .panic .stuck) ?_
    intro v s' _ hi'
    dsimp only
    split
    · exact .inr ⟨_, hi'.set (.inr (by simp)), rfl⟩
    · exact .inl ⟨_, rfl⟩
  | append x e =>
    intro F s ho hi hF
    simp only [exec, post]
    refine sound_assign hC hi hF ho (k := fun p => match p.2.env x, p.1 with
      | .vec ns, .node c => .ok (.norm, { p.2 with env := p.2.env.set x (.vec (ns ++ [c])) })
      | _, _ => .panic .stuck) ?_
    intro v s' _ hi'
    dsimp only
    split
    · exact .inr ⟨_, hi'.set (.inr (by simp)), rfl⟩
    · exact .inl ⟨_, rfl⟩
  | setType x nt =>
    intro F s _ hi hF
    simp only [exec, post]
    split
    · refine ⟨by simp, ?_, ?_⟩
      · rintro fl s' h; cases h; exact hi.set (.inr (by simp))
      · rintro s' h; cases h; exact ⟨_, rfl, hF.lit _⟩
    · exact ⟨by simp, by simp, by simp⟩
  | ite c a b iha ihb =>
    intro F s ho hi hF
    simp only [ok, Bool.and_eq_true] at ho
    simp only [exec, post]
    split
    · next h =>
      refine (iha _ s ho.1 hi ((holds_cond hi h).append hF)).weaken ?_
      intro G hG
      rw [hG]
      split
      · next A B hA hB => cases hA; exact ⟨_, rfl, fun f hf => (List.mem_filter.1 hf).1⟩
      · next A hA hB => cases hA; exact ⟨_, rfl, fun f hf => hf⟩
      · next hA => cases hA
    · next h =>
      refine (ihb _ s ho.2 hi ((holds_cond hi h).append hF)).weaken ?_
      intro G hG
      rw [hG]
      split
      · next A B hA hB =>
        cases hB
        exact ⟨_, rfl, fun f hf => by simpa using (List.mem_filter.1 hf).2⟩
      · next A hA hB => cases hB
      · exact ⟨_, rfl, fun f hf => hf⟩
    · next h => exact ⟨by rintro e' h'; cases h'; exact good_cond h, by simp, by simp⟩
    · exact ⟨by simp, by simp, by simp⟩
    · exact ⟨by simp, by simp, by simp⟩
  | loop a iha =>
    intro F s ho hi hF
    simp only [exec, post]
    exact sound_iterate (fun s hs => ⟨_, iha [] s ho hs Holds.nil⟩) _ s hi
  | brk =>
    intro F s _ hi hF
    simp only [exec, post]
    exact ⟨by simp, by rintro fl s' h; cases h; exact hi, by rintro s' h; cases h⟩
  | ret e =>
    intro F s ho hi hF
    simp only [exec, post]
    refine ⟨?_, ?_, ?_⟩
    · intro e' he
      rcases bind_err_cases he with h | ⟨_, _, h⟩
      · exact good_exp hC hi ho h
      · cases h
    · intro fl s' he
      obtain ⟨⟨v, s1⟩, h1, h⟩ := bind_ok_cases he
      cases h; exact (exp_state hi h1).1
    · intro s' he
      obtain ⟨⟨v, s1⟩, h1, h⟩ := bind_ok_cases he
      cases h
  | fail o n =>
    intro F s ho hi hF
    simp only [ok, failOk] at ho
    simp only [exec, post]
    refine ⟨?_, ?_, ?_⟩
    · intro e' he
      rcases bind_err_cases he with h | ⟨t, ht, h⟩
      · exact good_offTok h
      · cases h
        split at ho
        · rw [not_contradictory (holds_saturate hF)] at ho; cases ho
        · next k l hc =>
          simp only [Bool.and_eq_true, beq_iff_eq, List.all_eq_true] at ho
          obtain ⟨rfl, hl⟩ := ho
          obtain ⟨m, h1, h2⟩ := offTok_ok ht
          cases h1
          exact .site hc h2 fun f hf env hlit => (holds_entails hF (hl f hf)).lit hlit
    · intro fl s' he
      obtain ⟨t, _, h⟩ := bind_ok_cases he
      cases h
    · intro s' he
      obtain ⟨t, _, h⟩ := bind_ok_cases he
      cases h
  | scan x lo hi' a iha =>
    intro F s ho hi hF
    simp only [ok, Bool.and_eq_true, Bool.not_eq_true'] at ho
    cases hi' with
    | none =>
      simp only [exec, post]
      exact sound_scan (fun s hs => ⟨_, iha [] s ho.2 hs Holds.nil⟩) ho.1
        (fun s hs => ⟨by simp, by simp, by simp⟩) _ _ s hi
    | some h =>
      have gen : ∀ m, Sound C (scanLoop (exec C a) x (fun s => .ok (.norm, s)) m lo s) (some []) := fun m =>
        sound_scan (fun s hs => ⟨_, iha [] s ho.2 hs Holds.nil⟩) ho.1
          (fun s hs => ⟨by simp, by rintro fl s' h; cases h; exact hs, fun s' _ => ⟨[], rfl, Holds.nil⟩⟩) _ _ s hi
      simp only [exec]
      cases h with
      | nat m =>
        simp only [evalAtom, post]
        split
        · next hst =>
          cases hp : post [] a with
          | none => exact gen _
          | some G =>
            refine sound_scan_still (fun s hs => ?_) (fun s fl s' h => still_exec a s s' fl hst h) ho.1 _ _ s hi hF
            have := iha [] s ho.2 hs Holds.nil
            rw [hp] at this
            exact this
        · exact gen _
      | var y =>
        simp only [evalAtom, post]
        split
        · exact gen _
        all_goals exact ⟨by simp_all, by simp, by simp⟩
      | bool y => simp only [evalAtom, post]; exact ⟨by simp, by simp, by simp⟩
      | kws y => simp only [evalAtom, post]; exact ⟨by simp, by simp, by simp⟩
      | notVar y =>
        simp only [evalAtom, post]
        split
        · exact gen _
        · exact ⟨by simp, by simp, by simp⟩
        · next he => exact absurd he (evalAtom_ne_err (a := .notVar y) (env := s.env))
        · exact ⟨by simp, by simp, by simp⟩
        · exact ⟨by simp, by simp, by simp⟩
      | strEq y k =>
        simp only [evalAtom, post]
        split
        · exact gen _
        · exact ⟨by simp, by simp, by simp⟩
        · next he => exact absurd he (evalAtom_ne_err (a := .strEq y k) (env := s.env))
        · exact ⟨by simp, by simp, by simp⟩
        · exact ⟨by simp, by simp, by simp⟩
  | drain v x a iha =>
    intro F s ho hi hF
    simp only [exec, post]
    split
    · exact sound_drain (fun s hs => ⟨_, iha [] s ho hs Holds.nil⟩) _ _ (hi.set (.inr (by simp)))
    · exact ⟨by simp, by simp, by simp⟩
  | tryElse x f args h ih =>
    intro F s ho hi hF
    simp only [ok, Bool.and_eq_true, Bool.not_eq_true'] at ho
    have key := ih [] s ho.2 hi Holds.nil
    simp only [exec, post]
    cases hv : evalAtoms s.env args with
    | ok vs =>
      simp only [Out.bind_ok]
      split
      · exact ⟨by simp, by rintro fl s' h; cases h; exact hi.set (.inl ho.1.1), fun s' h => ⟨[], rfl, Holds.nil⟩⟩
      · exact ⟨key.err, key.inv, fun s' h => ⟨[], rfl, Holds.nil⟩⟩
      · exact ⟨by simp, by simp, by simp⟩
      · exact ⟨by simp, by simp, by simp⟩
    | err e => exact absurd hv evalAtoms_ne_err
    | panic p => exact ⟨by simp, by simp, by simp⟩
    | timeout => exact ⟨by simp, by simp, by simp⟩

theorem callN_good (U : Unicode) (toks : List Token) (fuel : Nat) : ∀ (n : Nat) (f : Fn) (vs : List Val) (ps : PS)
    (e : Err), ArgsGood (Program.defs f).params vs → callN U Program.defs toks fuel n f vs ps = .err e →
    Good U toks e := by
  intro n
  induction n with
  | zero => intro f vs ps e _ h; cases h
  | succ n ih =>
    intro f vs ps e ha h
    simp only [callN, runBody] at h
    have := sound_exec (C := ⟨U, toks, fuel, callN U Program.defs toks fuel n⟩) (fun f vs ps e => ih f vs ps e)
      (Program.defs f).body [] ⟨ps, bindParams (Program.defs f).params vs⟩ (all_ok f (by cases f <;> decide))
      (bindParams_inv ha) Holds.nil
    split at h
    · cases h
    · cases h
    · next he => cases h; exact this.err _ he
    · cases h
    · cases h

theorem parseLoop_good (U : Unicode) (toks : List Token) (fuel depth : Nat) : ∀ (n : Nat) (ps : PS) (l : List Node)
    (e : Err), parseLoop U toks fuel depth n ps l = .err e → Good U toks e := by
  intro n
  induction n with
  | zero => intro ps l e h; cases h
  | succ n ih =>
    intro ps l e h
    simp only [parseLoop] at h
    split at h
    · rcases bind_err_cases h with h | ⟨_, _, h⟩
      · exact good_construct h
      · cases h
    · split at h
      · split at h
        · exact ih _ _ _ h
        · next hh => cases h; exact good_next hh
        · cases h
        · cases h
      · cases h
      · next hh =>
        cases h
        refine callN_good U toks fuel depth .parse_statement _ _ _ ?_ hh
        have hp : (Program.defs .parse_statement).params.all (fun x => !precVars.contains x) = true := by decide
        revert hp
        generalize (Program.defs .parse_statement).params = xs
        intro hp
        cases xs with
        | nil => simp [ArgsGood]
        | cons x xs => exact ⟨.inr (by simp), by simp [ArgsGood]⟩
      · cases h
      · cases h

theorem new_ne_err {toks : List Token} {e : Err} : Core.new toks ≠ .err e := by
  unfold Core.new
  dsimp only
  split
  · simp
  · split <;> simp

theorem parseTokens_good (U : Unicode) (toks : List Token) (e : Err) (h : parseTokens U toks = .err e) :
    Good U toks e := by
  unfold parseTokens parseTokensWith at h
  rcases bind_err_cases h with h | ⟨_, _, h⟩
  · exact absurd h new_ne_err
  · exact parseLoop_good _ _ _ _ _ _ _ _ h

end Verif.Blame
