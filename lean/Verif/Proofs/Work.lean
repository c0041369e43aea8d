import Verif.Proofs.Terminate
import Verif.Model.Work
import Verif.Spec.Work
/-!
A bound on the work of the parser.  `budget` is an executable analysis of commands that counts calls
on every path: calls made before the position has moved are limited in number, and those made
afterwards are paid for by the last `next_token`.
-/
namespace Verif
open Core Interp

/-- Where a command stands: at the place where the function was called with no call made; possibly
there, after at most `d` calls; beyond it, with `c` more calls paid for. -/
inductive Pace
  | start
  | pre (d : Nat)
  | post (d c : Nat)
  deriving DecidableEq

/-- The number of calls before the first move. -/
def Pace.count : Pace → Nat
  | .start => 0
  | .pre d => d
  | .post d _ => d

/-- Join of control flow paths, where at most `K` calls are made before the first move. -/
def Pace.join (K : Nat) : Pace → Pace → Pace
  | .start, .start => .start
  | .post d c, .post d' c' => .post (min K (max d d')) (min c c')
  | σ, τ => .pre (min K (max σ.count τ.count))

/-- Join of the possible ways of leaving a command. -/
def joinPace (K : Nat) : Option Pace → Option Pace → Option Pace
  | none, b => b
  | a, none => a
  | some a, some b => some (a.join K b)

/-- Result of `budget`. -/
structure Budget where
  norm : Option Pace
  brk : Option Pace
  ret : Option Pace
  ok : Bool

/-- A call of `f` by a function of rank `r`, with at most `K` calls between moves. -/
def paceCall (K r : Nat) (f : Fn) : Pace → Option Pace
  | .start => if rank f < r ∧ 1 ≤ K then some (.pre 1) else none
  | .pre d => if rank f < r ∧ d + 1 ≤ K then some (.pre (d + 1)) else none
  | .post d c => if 1 ≤ c then some (.post d (c - 1)) else none

/-- A right-hand side. -/
def paceExp (K r : Nat) (e : Exp) (σ : Pace) : Option Pace :=
  match e.calls with
  | [] => some σ
  | f :: _ => paceCall K r f σ

/-- A move. -/
def paceNext (K : Nat) : Pace → Pace
  | .start => .post 0 K
  | .pre d => .post d K
  | .post d _ => .post d K

/-- Is the second at most as precise? -/
def Pace.imp (K : Nat) : Pace → Pace → Bool
  | .start, .start => true
  | .post d c, .post d' c' => d ≤ d' && d' ≤ K && c' ≤ c
  | σ, .pre d => σ.count ≤ d && d ≤ K
  | _, _ => false

/-- A candidate for a pace that all further iterations of a body keep. -/
def keep (K : Nat) (f : Pace → Budget) (σ : Pace) : Pace :=
  match (f σ).norm with
  | none => σ
  | some τ => σ.join K τ

/-- It includes the pace before the first iteration and the one after any. -/
def kept (K : Nat) (b : Budget) (σ σ' : Pace) : Bool := σ.imp K σ' && b.norm.all fun τ => τ.imp K σ'

/-- The analysis. -/
def budget (K r : Nat) : Cmd → Pace → Budget
  | .skip, σ => ⟨some σ, none, none, true⟩
  | .seq x y, σ =>
    let b := budget K r x σ
    match b.norm with
    | none => b
    | some σ' =>
      let q := budget K r y σ'
      ⟨q.norm, joinPace K b.brk q.brk, joinPace K b.ret q.ret, b.ok && q.ok⟩
  | .next, σ => ⟨some (paceNext K σ), none, none, true⟩
  | .set _ e, σ => ⟨paceExp K r e σ, none, none, (paceExp K r e σ).isSome⟩
  | .push _ _ e, σ => ⟨paceExp K r e σ, none, none, (paceExp K r e σ).isSome⟩
  | .pushVec _ _ e, σ => ⟨paceExp K r e σ, none, none, (paceExp K r e σ).isSome⟩
  | .append _ e, σ => ⟨paceExp K r e σ, none, none, (paceExp K r e σ).isSome⟩
  | .setType .., σ => ⟨some σ, none, none, true⟩
  | .ite _ x y, σ =>
    let b := budget K r x σ
    let q := budget K r y σ
    ⟨joinPace K b.norm q.norm, joinPace K b.brk q.brk, joinPace K b.ret q.ret, b.ok && q.ok⟩
  | .loop x, σ =>
    let b1 := budget K r x σ
    match b1.norm with
    | none => ⟨b1.brk, none, b1.ret, b1.ok⟩
    | some σ1 =>
      let σ2 := keep K (budget K r x) σ1
      let b2 := budget K r x σ2
      ⟨joinPace K b1.brk b2.brk, none, joinPace K b1.ret b2.ret, b1.ok && b2.ok && kept K b2 σ1 σ2⟩
  | .brk, σ => ⟨none, some σ, none, true⟩
  | .ret e, σ => ⟨none, none, paceExp K r e σ, (paceExp K r e σ).isSome⟩
  | .fail .., _ => ⟨none, none, none, true⟩
  | .scan _ _ _ body, σ =>
    let σ' := keep K (budget K r body) σ
    let b := budget K r body σ'
    ⟨joinPace K (some σ') b.brk, none, b.ret, b.ok && kept K b σ σ'⟩
  | .drain _ _ body, σ =>
    let σ' := keep K (budget K r body) σ
    let b := budget K r body σ'
    ⟨joinPace K (some σ') b.brk, none, b.ret, b.ok && kept K b σ σ'⟩
  | .tryElse .., _ => ⟨none, none, none, false⟩

/-- The number of calls between moves. -/
def slack : Nat := 2

/-- The check for one function. -/
def budgetOk (defs : Fn → FunDef) (f : Fn) : Bool :=
  (budget slack (rank f) (defs f).body .start).ok


/-! ### What the analysis says about executions -/

/-- A call makes at most `X` calls more than the potential it uses up. -/
def Bounded (call : Fn → List Val → PS → Out (Val × PS)) (w : Fn → List Val → PS → Nat) (pot : Nat → Nat)
    (X : Nat) (g : Fn) (vs : List Val) (ps : PS) : Prop :=
  w g vs ps ≤ X + pot ps.pos ∧
    ∀ v ps', call g vs ps = .ok (v, ps') → w g vs ps + pot ps'.pos ≤ X + pot ps.pos

/-- The surroundings of a function of rank `r` called at `p0`: calls of lower rank cost at most `Bl`,
calls beyond `p0` at most `Bh`, and a move pays for `K` of the latter. -/
structure Metered (C : Ctx) (w : Fn → List Val → PS → Nat) (pot : Nat → Nat) (p0 r K Bl Bh : Nat) : Prop where
  mono : MonoCall C.toks C.call
  low : ∀ g vs ps, ps.In C.toks → p0 ≤ ps.pos → rank g < r → Bounded C.call w pot Bl g vs ps
  high : ∀ g vs ps, ps.In C.toks → p0 < ps.pos → Bounded C.call w pot Bh g vs ps
  move : ∀ p q, p0 ≤ p → p < C.toks.length → p < q → pot q + (K * Bh + 1) ≤ pot p

/-- The calls made so far, `t`, are as the analysis says. -/
def Holds (pot : Nat → Nat) (p0 K Bl Bh : Nat) : Pace → Nat → Nat → Prop
  | .start, p, t => p = p0 ∧ t = 0
  | .pre d, p, t => p0 ≤ p ∧ d ≤ K ∧ t + pot p ≤ pot p0 + d * Bl
  | .post d c, p, t => p0 < p ∧ d ≤ K ∧ t + c * Bh + pot p ≤ pot p0 + d * Bl

/-- The way of leaving a command. -/
def Budget.at (b : Budget) : Flow → Option Pace
  | .norm => b.norm
  | .brk => b.brk
  | .ret _ => b.ret

/-- After a command that ends with `o`, with `t` calls made so far. -/
def Fine (toks : List Token) (pot : Nat → Nat) (p0 K Bl Bh : Nat) (b : Budget) (o : Out (Flow × St)) (t : Nat) :
    Prop :=
  t ≤ pot p0 + K * Bl ∧ ∀ fl s', o = .ok (fl, s') → s'.ps.In toks ∧
    ∃ σ, b.at fl = some σ ∧ Holds pot p0 K Bl Bh σ s'.ps.pos t

variable {C : Ctx} {w : Fn → List Val → PS → Nat} {pot : Nat → Nat} {p0 r K Bl Bh : Nat}

theorem Holds.ge {σ : Pace} {p t : Nat} (h : Holds pot p0 K Bl Bh σ p t) : p0 ≤ p := by
  cases σ <;> simp only [Holds] at h <;> omega

theorem Holds.total {σ : Pace} {p t : Nat} (h : Holds pot p0 K Bl Bh σ p t) : t ≤ pot p0 + K * Bl := by
  cases σ with
  | start => simp only [Holds] at h; omega
  | pre d =>
    have := Nat.mul_le_mul_right Bl h.2.1
    have := h.2.2; omega
  | post d c =>
    have := Nat.mul_le_mul_right Bl h.2.1
    have := h.2.2; omega

theorem Holds.weak {σ : Pace} {p t : Nat} (h : Holds pot p0 K Bl Bh σ p t) :
    σ.count ≤ K ∧ t + pot p ≤ pot p0 + σ.count * Bl := by
  cases σ with
  | start => obtain ⟨rfl, rfl⟩ := h; simp [Pace.count]
  | pre d => exact h.2
  | post d c => have := h.2.2; exact ⟨h.2.1, by simp only [Pace.count]; omega⟩

theorem Holds.pre {σ : Pace} {p t : Nat} (h : Holds pot p0 K Bl Bh σ p t) {d : Nat} (hd : σ.count ≤ d)
    (hk : d ≤ K) : Holds pot p0 K Bl Bh (.pre d) p t := by
  have := Nat.mul_le_mul_right Bl hd
  have := h.weak.2
  exact ⟨h.ge, hk, by omega⟩

theorem Holds.post {d c : Nat} {p t : Nat} (h : Holds pot p0 K Bl Bh (.post d c) p t) {d' c' : Nat}
    (hd : d ≤ d') (hk : d' ≤ K) (hc : c' ≤ c) : Holds pot p0 K Bl Bh (.post d' c') p t := by
  obtain ⟨h1, h2, h3⟩ := h
  have := Nat.mul_le_mul_right Bl hd
  have := Nat.mul_le_mul_right Bh hc
  exact ⟨h1, hk, by omega⟩

theorem Holds.imp {σ τ : Pace} {p t : Nat} (h : Holds pot p0 K Bl Bh σ p t) (hi : σ.imp K τ = true) :
    Holds pot p0 K Bl Bh τ p t := by
  unfold Pace.imp at hi
  split at hi
  · exact h
  · simp only [Bool.and_eq_true, decide_eq_true_eq] at hi
    exact h.post hi.1.1 hi.1.2 hi.2
  · simp only [Bool.and_eq_true, decide_eq_true_eq] at hi
    exact h.pre hi.1 hi.2
  · simp at hi

theorem Holds.left {σ : Pace} {p t : Nat} (h : Holds pot p0 K Bl Bh σ p t) (τ : Pace) :
    Holds pot p0 K Bl Bh (σ.join K τ) p t := by
  have hk := h.weak.1
  unfold Pace.join
  split
  · exact h
  · simp only [Pace.count] at hk
    exact h.post (by omega) (by omega) (by omega)
  · exact h.pre (by omega) (by omega)

theorem Holds.right {τ : Pace} {p t : Nat} (h : Holds pot p0 K Bl Bh τ p t) (σ : Pace) :
    Holds pot p0 K Bl Bh (σ.join K τ) p t := by
  have hk := h.weak.1
  unfold Pace.join
  split
  · exact h
  · simp only [Pace.count] at hk
    exact h.post (by omega) (by omega) (by omega)
  · exact h.pre (by omega) (by omega)

theorem Holds.joinL {a b : Option Pace} {p t : Nat}
    (h : ∃ σ, a = some σ ∧ Holds pot p0 K Bl Bh σ p t) :
    ∃ σ, joinPace K a b = some σ ∧ Holds pot p0 K Bl Bh σ p t := by
  obtain ⟨σ, rfl, h⟩ := h
  cases b with
  | none => exact ⟨σ, rfl, h⟩
  | some τ => exact ⟨_, rfl, h.left τ⟩

theorem Holds.joinR {a b : Option Pace} {p t : Nat}
    (h : ∃ σ, b = some σ ∧ Holds pot p0 K Bl Bh σ p t) :
    ∃ σ, joinPace K a b = some σ ∧ Holds pot p0 K Bl Bh σ p t := by
  obtain ⟨σ, rfl, h⟩ := h
  cases a with
  | none => exact ⟨σ, rfl, h⟩
  | some τ => exact ⟨_, rfl, h.right τ⟩

/-- Right-hand sides. -/
theorem expWork_fine (hM : Metered C w pot p0 r K Bl Bh) {s : St} {e : Exp} {σ τ : Pace} {t : Nat}
    (hs : s.ps.In C.toks) (h : Holds pot p0 K Bl Bh σ s.ps.pos t) (he : paceExp K r e σ = some τ) :
    t + expWork w s e ≤ pot p0 + K * Bl ∧ ∀ v s', evalExp C s e = .ok (v, s') →
      s'.ps.In C.toks ∧ Holds pot p0 K Bl Bh τ s'.ps.pos (t + expWork w s e) := by
  by_cases hc : e.calls = []
  · have h0 : expWork w s e = 0 := by
      cases e <;> first | rfl | (simp [Exp.calls] at hc)
    simp only [paceExp, hc, Option.some.injEq] at he
    subst he
    rw [h0]
    refine ⟨h.total, fun v s' hx => ?_⟩
    have hp : s'.ps = s.ps := by
      cases e with
      | call f args => simp [Exp.calls] at hc
      | pop x =>
        simp only [evalExp] at hx
        split at hx
        · split at hx <;> simp only [Out.ok.injEq, Prod.mk.injEq, reduceCtorEq] at hx
          rw [← hx.2]
        · simp at hx
      | var x => simp only [evalExp, Out.ok.injEq, Prod.mk.injEq] at hx; rw [← hx.2]
      | empty x => simp only [evalExp, Out.ok.injEq, Prod.mk.injEq] at hx; rw [← hx.2]
      | nilVec => simp only [evalExp, Out.ok.injEq, Prod.mk.injEq] at hx; rw [← hx.2]
      | natLit => simp only [evalExp, Out.ok.injEq, Prod.mk.injEq] at hx; rw [← hx.2]
      | boolLit => simp only [evalExp, Out.ok.injEq, Prod.mk.injEq] at hx; rw [← hx.2]
      | kws => simp only [evalExp, Out.ok.injEq, Prod.mk.injEq] at hx; rw [← hx.2]
      | prec o =>
        simp only [evalExp] at hx
        obtain ⟨n, _, hx⟩ := bind_ok_inv hx
        obtain ⟨n, _, hx⟩ := bind_ok_inv hx
        simp only [Out.ok.injEq, Prod.mk.injEq] at hx; rw [← hx.2]
      | _ =>
        simp only [evalExp] at hx
        obtain ⟨n, _, hx⟩ := bind_ok_inv hx
        simp only [Out.ok.injEq, Prod.mk.injEq] at hx; rw [← hx.2]
    rw [hp]
    exact ⟨hs, h⟩
  · cases e with
    | call f args =>
      simp only [paceExp, Exp.calls] at he
      simp only [expWork, evalExp]
      cases hv : evalAtoms s.env args with
      | ok vs =>
        dsimp only
        -- what the call costs
        have key : t + w f vs s.ps ≤ pot p0 + K * Bl ∧ ∀ v ps', C.call f vs s.ps = .ok (v, ps') →
            ps'.In C.toks ∧ Holds pot p0 K Bl Bh τ ps'.pos (t + w f vs s.ps) := by
          have hp0 := h.ge
          have low : ∀ d, rank f < r → σ.count ≤ d → d + 1 ≤ K → τ = .pre (d + 1) →
              t + w f vs s.ps ≤ pot p0 + K * Bl ∧ ∀ v ps', C.call f vs s.ps = .ok (v, ps') →
                ps'.In C.toks ∧ Holds pot p0 K Bl Bh τ ps'.pos (t + w f vs s.ps) := by
            rintro d hr hd hk rfl
            obtain ⟨b1, b2⟩ := hM.low f vs s.ps hs hp0 hr
            obtain ⟨-, -, h3⟩ := h.pre hd (by omega)
            have e1 : (d + 1) * Bl = d * Bl + Bl := Nat.succ_mul d Bl
            have e2 := Nat.mul_le_mul_right Bl hk
            refine ⟨by omega, fun v ps' hx => ?_⟩
            obtain ⟨m1, m2⟩ := hM.mono f vs s.ps v ps' hs hx
            have := b2 v ps' hx
            exact ⟨m1, by omega, hk, by omega⟩
          cases σ with
          | start =>
            simp only [paceCall, Option.ite_none_right_eq_some, Option.some.injEq] at he
            exact low 0 he.1.1 (Nat.le_refl _) he.1.2 he.2.symm
          | pre d =>
            simp only [paceCall, Option.ite_none_right_eq_some, Option.some.injEq] at he
            exact low d he.1.1 (Nat.le_refl _) he.1.2 he.2.symm
          | post d c =>
            simp only [paceCall, Option.ite_none_right_eq_some, Option.some.injEq] at he
            obtain ⟨hc1, rfl⟩ := he
            obtain ⟨h1, h2, h3⟩ := h
            obtain ⟨b1, b2⟩ := hM.high f vs s.ps hs h1
            have e1 : c * Bh = (c - 1) * Bh + Bh := by
              rw [← Nat.succ_mul]; congr; omega
            have e2 := Nat.mul_le_mul_right Bl h2
            refine ⟨by omega, fun v ps' hx => ?_⟩
            obtain ⟨m1, m2⟩ := hM.mono f vs s.ps v ps' hs hx
            have := b2 v ps' hx
            exact ⟨m1, by omega, h2, by omega⟩
        refine ⟨key.1, fun v s' hx => ?_⟩
        obtain ⟨vs', hv', hx⟩ := bind_ok_inv hx
        obtain rfl : vs = vs' := by simpa using hv'
        obtain ⟨⟨v1, ps1⟩, hx1, hx⟩ := bind_ok_inv hx
        simp only [Out.ok.injEq, Prod.mk.injEq] at hx
        obtain ⟨-, rfl⟩ := hx
        exact key.2 _ _ hx1
      | _ =>
        refine ⟨by simpa using h.total, fun v s' hx => ?_⟩
        simp at hx
    | _ => simp [Exp.calls] at hc

/-- Sequences. -/
theorem Fine.seq {x y : Cmd} {s : St} {t : Nat} {b : Budget} {f : Pace → Budget}
    (hx : Fine C.toks pot p0 K Bl Bh b (exec C x s) (t + work C w x s))
    (hy : ∀ σ s1, b.norm = some σ → exec C x s = .ok (.norm, s1) → s1.ps.In C.toks →
      Holds pot p0 K Bl Bh σ s1.ps.pos (t + work C w x s) →
      Fine C.toks pot p0 K Bl Bh (f σ) (exec C y s1) (t + work C w x s + work C w y s1)) :
    Fine C.toks pot p0 K Bl Bh
      (match b.norm with
        | none => b
        | some σ => ⟨(f σ).norm, joinPace K b.brk (f σ).brk, joinPace K b.ret (f σ).ret, b.ok && (f σ).ok⟩)
      (exec C (.seq x y) s) (t + work C w (.seq x y) s) := by
  obtain ⟨h1, h2⟩ := hx
  simp only [exec, work]
  rcases hxe : exec C x s with ⟨f1, s1⟩ | e | p | _
  · obtain ⟨h3, σ, h4, h5⟩ := h2 f1 s1 hxe
    cases f1 with
    | norm =>
      simp only [Budget.at] at h4
      obtain ⟨g1, g2⟩ := hy σ s1 h4 hxe h3 h5
      rw [h4]
      dsimp only
      rw [← Nat.add_assoc]
      refine ⟨g1, fun fl s' he => ?_⟩
      obtain ⟨g3, g4⟩ := g2 fl s' he
      refine ⟨g3, ?_⟩
      cases fl
      · exact g4
      · exact Holds.joinR g4
      · exact Holds.joinR g4
    | brk =>
      refine ⟨h1, fun fl s' he => ?_⟩
      simp only [Out.ok.injEq, Prod.mk.injEq] at he
      obtain ⟨rfl, rfl⟩ := he
      refine ⟨h3, ?_⟩
      split
      · exact ⟨σ, h4, h5⟩
      · exact Holds.joinL ⟨σ, h4, h5⟩
    | ret v =>
      refine ⟨h1, fun fl s' he => ?_⟩
      simp only [Out.ok.injEq, Prod.mk.injEq] at he
      obtain ⟨rfl, rfl⟩ := he
      refine ⟨h3, ?_⟩
      split
      · exact ⟨σ, h4, h5⟩
      · exact Holds.joinL ⟨σ, h4, h5⟩
  all_goals exact ⟨h1, fun fl s' he => by simp at he⟩

theorem paceExp_some {e : Exp} {σ : Pace} (h : (paceExp K r e σ).isSome = true) :
    ∃ τ, paceExp K r e σ = some τ := Option.isSome_iff_exists.mp h

/-- The number of calls every command makes is as the analysis says. -/
theorem exec_work (hM : Metered C w pot p0 r K Bl Bh) (c : Cmd) :
    ∀ (σ : Pace) (s : St) (t : Nat), s.ps.In C.toks → Holds pot p0 K Bl Bh σ s.ps.pos t →
      (budget K r c σ).ok = true →
      Fine C.toks pot p0 K Bl Bh (budget K r c σ) (exec C c s) (t + work C w c s) := by
  induction c with
  | skip =>
    intro σ s t hs h hok
    refine ⟨h.total, fun fl s' he => ?_⟩
    simp only [exec, Out.ok.injEq, Prod.mk.injEq] at he
    obtain ⟨rfl, rfl⟩ := he
    exact ⟨hs, σ, rfl, h⟩
  | seq x y ihx ihy =>
    intro σ s t hs h hok
    simp only [budget] at hok ⊢
    refine Fine.seq (f := budget K r y) (ihx σ s t hs h ?_) ?_
    · split at hok
      · exact hok
      · simp only [Bool.and_eq_true] at hok; exact hok.1
    · intro τ s1 hn _ hs1 h1
      rw [hn] at hok
      simp only [Bool.and_eq_true] at hok
      exact ihy τ s1 _ hs1 h1 hok.2
  | next =>
    intro σ s t hs h hok
    have hge := h.ge
    have hw := h.weak
    have hk := Nat.mul_le_mul_right Bl hw.1
    have hmv := hM.move s.ps.pos (s.ps.pos + 1) hge hs (by omega)
    simp only [work]
    refine ⟨by omega, fun fl s' he => ?_⟩
    simp only [exec] at he
    obtain ⟨ps, h1, he⟩ := bind_ok_inv he
    simp only [Out.ok.injEq, Prod.mk.injEq] at he
    obtain ⟨rfl, rfl⟩ := he
    rcases nextToken_cases C.toks s.ps hs with ⟨ps', g1, g2, g3, g4⟩ | ⟨t, g1, g2⟩
    · rw [g1] at h1
      cases h1
      have hmv := hM.move s.ps.pos ps.pos hge hs g3
      refine ⟨g4, .post σ.count K, ?_, by dsimp only; omega, hw.1, by dsimp only; omega⟩
      cases σ <;> rfl
    · rw [g2] at h1; cases h1
  | set x e =>
    intro σ s t hs h hok
    obtain ⟨τ, hτ⟩ := paceExp_some hok
    obtain ⟨h1, h2⟩ := expWork_fine hM hs h hτ
    refine ⟨h1, fun fl s' he => ?_⟩
    simp only [exec] at he
    obtain ⟨⟨v, s1⟩, g1, he⟩ := bind_ok_inv he
    simp only [Out.ok.injEq, Prod.mk.injEq] at he
    obtain ⟨rfl, rfl⟩ := he
    obtain ⟨k1, k2⟩ := h2 v s1 g1
    exact ⟨k1, τ, hτ, k2⟩
  | push x k e =>
    intro σ s t hs h hok
    obtain ⟨τ, hτ⟩ := paceExp_some hok
    obtain ⟨h1, h2⟩ := expWork_fine hM hs h hτ
    refine ⟨h1, fun fl s' he => ?_⟩
    simp only [exec] at he
    obtain ⟨⟨v, s1⟩, g1, he⟩ := bind_ok_inv he
    dsimp only at he
    split at he <;> simp only [Out.ok.injEq, Prod.mk.injEq, reduceCtorEq] at he
    obtain ⟨rfl, rfl⟩ := he
    obtain ⟨k1, k2⟩ := h2 _ s1 g1
    exact ⟨k1, τ, hτ, k2⟩
  | pushVec x k e =>
    intro σ s t hs h hok
    obtain ⟨τ, hτ⟩ := paceExp_some hok
    obtain ⟨h1, h2⟩ := expWork_fine hM hs h hτ
    refine ⟨h1, fun fl s' he => ?_⟩
    simp only [exec] at he
    obtain ⟨⟨v, s1⟩, g1, he⟩ := bind_ok_inv he
    dsimp only at he
    split at he <;> simp only [Out.ok.injEq, Prod.mk.injEq, reduceCtorEq] at he
    obtain ⟨rfl, rfl⟩ := he
    obtain ⟨k1, k2⟩ := h2 _ s1 g1
    exact ⟨k1, τ, hτ, k2⟩
  | append x e =>
    intro σ s t hs h hok
    obtain ⟨τ, hτ⟩ := paceExp_some hok
    obtain ⟨h1, h2⟩ := expWork_fine hM hs h hτ
    refine ⟨h1, fun fl s' he => ?_⟩
    simp only [exec] at he
    obtain ⟨⟨v, s1⟩, g1, he⟩ := bind_ok_inv he
    dsimp only at he
    split at he <;> simp only [Out.ok.injEq, Prod.mk.injEq, reduceCtorEq] at he
    obtain ⟨rfl, rfl⟩ := he
    obtain ⟨k1, k2⟩ := h2 _ s1 g1
    exact ⟨k1, τ, hτ, k2⟩
  | setType x nt =>
    intro σ s t hs h hok
    refine ⟨h.total, fun fl s' he => ?_⟩
    simp only [exec] at he
    split at he <;> simp only [Out.ok.injEq, Prod.mk.injEq, reduceCtorEq] at he
    obtain ⟨rfl, rfl⟩ := he
    exact ⟨hs, σ, rfl, h⟩
  | ite c x y ihx ihy =>
    intro σ s t hs h hok
    simp only [budget, Bool.and_eq_true] at hok ⊢
    simp only [exec, work]
    rcases evalCond C s c with (_ | _) | e | p | _
    · obtain ⟨g1, g2⟩ := ihy σ s t hs h hok.2
      refine ⟨g1, fun fl s' he => ?_⟩
      obtain ⟨g3, g4⟩ := g2 fl s' he
      refine ⟨g3, ?_⟩
      cases fl <;> exact Holds.joinR g4
    · obtain ⟨g1, g2⟩ := ihx σ s t hs h hok.1
      refine ⟨g1, fun fl s' he => ?_⟩
      obtain ⟨g3, g4⟩ := g2 fl s' he
      refine ⟨g3, ?_⟩
      cases fl <;> exact Holds.joinL g4
    all_goals exact ⟨h.total, fun fl s' he => by simp at he⟩
  | loop x ih =>
    intro σ s t hs h hok
    simp only [exec, work]
    have key : ∀ σ2 : Pace, (budget K r x σ2).ok = true →
        ((budget K r x σ2).norm.all fun τ => τ.imp K σ2) = true →
        ∀ n s t, s.ps.In C.toks → Holds pot p0 K Bl Bh σ2 s.ps.pos t →
        t + iterateWork (work C w x) (exec C x) n s ≤ pot p0 + K * Bl ∧
        ∀ fl s', iterate (exec C x) n s = .ok (fl, s') → s'.ps.In C.toks ∧
          ∃ τ, (⟨(budget K r x σ2).brk, none, (budget K r x σ2).ret, true⟩ : Budget).at fl = some τ ∧
            Holds pot p0 K Bl Bh τ s'.ps.pos (t + iterateWork (work C w x) (exec C x) n s) := by
      intro σ2 hok2 hk n
      induction n with
      | zero =>
        intro s t hs h
        exact ⟨h.total, fun fl s' he => by simp [iterate] at he⟩
      | succ n ihn =>
        intro s t hs h
        obtain ⟨g1, g2⟩ := ih σ2 s t hs h hok2
        simp only [iterate, iterateWork]
        rcases hx : exec C x s with ⟨f1, s1⟩ | e | p | _
        · obtain ⟨g3, τ, g4, g5⟩ := g2 f1 s1 hx
          cases f1 with
          | norm =>
            simp only [Budget.at] at g4
            rw [g4] at hk
            dsimp only
            rw [← Nat.add_assoc]
            exact ihn s1 _ g3 (g5.imp (by simpa using hk))
          | brk =>
            refine ⟨g1, fun fl s' he => ?_⟩
            simp only [Out.ok.injEq, Prod.mk.injEq] at he
            obtain ⟨rfl, rfl⟩ := he
            exact ⟨g3, τ, g4, g5⟩
          | ret v =>
            refine ⟨g1, fun fl s' he => ?_⟩
            simp only [Out.ok.injEq, Prod.mk.injEq] at he
            obtain ⟨rfl, rfl⟩ := he
            exact ⟨g3, τ, g4, g5⟩
        all_goals exact ⟨g1, fun fl s' he => by simp at he⟩
    cases C.fuel with
    | zero => exact ⟨h.total, fun fl s' he => by simp [iterate] at he⟩
    | succ n =>
      have hok1 : (budget K r x σ).ok = true := by
        simp only [budget] at hok
        split at hok
        · exact hok
        · simp only [Bool.and_eq_true] at hok; exact hok.1.1
      obtain ⟨g1, g2⟩ := ih σ s t hs h hok1
      simp only [iterate, iterateWork]
      rcases hx : exec C x s with ⟨f1, s1⟩ | e | p | _
      · obtain ⟨g3, τ, g4, g5⟩ := g2 f1 s1 hx
        cases f1 with
        | norm =>
          simp only [Budget.at] at g4
          simp only [budget, g4, Bool.and_eq_true, kept] at hok ⊢
          obtain ⟨m1, m2⟩ := key _ hok.1.2 hok.2.2 n s1 _ g3 (g5.imp hok.2.1)
          rw [← Nat.add_assoc]
          refine ⟨m1, fun fl s' he => ?_⟩
          obtain ⟨m3, m4⟩ := m2 fl s' he
          refine ⟨m3, ?_⟩
          cases fl with
          | norm => exact Holds.joinR m4
          | brk => obtain ⟨_, m4, _⟩ := m4; simp [Budget.at] at m4
          | ret v => exact Holds.joinR m4
        | brk =>
          refine ⟨g1, fun fl s' he => ?_⟩
          simp only [Out.ok.injEq, Prod.mk.injEq] at he
          obtain ⟨rfl, rfl⟩ := he
          refine ⟨g3, ?_⟩
          simp only [budget]
          split
          · exact ⟨τ, g4, g5⟩
          · exact Holds.joinL ⟨τ, g4, g5⟩
        | ret v =>
          refine ⟨g1, fun fl s' he => ?_⟩
          simp only [Out.ok.injEq, Prod.mk.injEq] at he
          obtain ⟨rfl, rfl⟩ := he
          refine ⟨g3, ?_⟩
          simp only [budget]
          split
          · exact ⟨τ, g4, g5⟩
          · exact Holds.joinL ⟨τ, g4, g5⟩
      all_goals exact ⟨g1, fun fl s' he => by simp at he⟩
  | brk =>
    intro σ s t hs h hok
    refine ⟨h.total, fun fl s' he => ?_⟩
    simp only [exec, Out.ok.injEq, Prod.mk.injEq] at he
    obtain ⟨rfl, rfl⟩ := he
    exact ⟨hs, σ, rfl, h⟩
  | ret e =>
    intro σ s t hs h hok
    obtain ⟨τ, hτ⟩ := paceExp_some hok
    obtain ⟨h1, h2⟩ := expWork_fine hM hs h hτ
    refine ⟨h1, fun fl s' he => ?_⟩
    simp only [exec] at he
    obtain ⟨⟨v, s1⟩, g1, he⟩ := bind_ok_inv he
    simp only [Out.ok.injEq, Prod.mk.injEq] at he
    obtain ⟨rfl, rfl⟩ := he
    obtain ⟨k1, k2⟩ := h2 v s1 g1
    exact ⟨k1, τ, hτ, k2⟩
  | fail o line =>
    intro σ s t hs h hok
    refine ⟨h.total, fun fl s' he => ?_⟩
    simp only [exec] at he
    obtain ⟨u, h1, he⟩ := bind_ok_inv he
    simp at he
  | scan x lo hi body ih =>
    intro σ s t hs h hok
    simp only [budget, Bool.and_eq_true, kept] at hok ⊢
    generalize keep K (budget K r body) σ = σ2 at hok
    have h2 := h.imp hok.2.1
    have key : ∀ (d : St → Out (Flow × St)),
        (∀ s s' fl, d s = .ok (fl, s') → fl = .norm ∧ s = s') →
        ∀ n i s t, s.ps.In C.toks → Holds pot p0 K Bl Bh σ2 s.ps.pos t →
        t + scanWork (work C w body) (exec C body) x n i s ≤ pot p0 + K * Bl ∧
        ∀ fl s', scanLoop (exec C body) x d n i s = .ok (fl, s') → s'.ps.In C.toks ∧
          ∃ τ, (⟨joinPace K (some σ2) (budget K r body σ2).brk, none, (budget K r body σ2).ret, true⟩ : Budget).at fl
            = some τ ∧ Holds pot p0 K Bl Bh τ s'.ps.pos
              (t + scanWork (work C w body) (exec C body) x n i s) := by
      intro d hd n
      induction n with
      | zero =>
        intro i s t hs h
        refine ⟨h.total, fun fl s' he => ?_⟩
        obtain ⟨rfl, rfl⟩ := hd _ _ _ he
        exact ⟨hs, Holds.joinL ⟨σ2, rfl, h⟩⟩
      | succ n ihn =>
        intro i s t hs h
        obtain ⟨g1, g2⟩ := ih σ2 { s with env := s.env.set x (.nat i) } t hs h hok.1
        simp only [scanLoop, scanWork]
        rcases hx : exec C body { s with env := s.env.set x (.nat i) } with ⟨f1, s1⟩ | e | p | _
        · obtain ⟨g3, τ, g4, g5⟩ := g2 f1 s1 hx
          cases f1 with
          | norm =>
            simp only [Budget.at] at g4
            have hk := hok.2.2
            rw [g4] at hk
            dsimp only
            rw [← Nat.add_assoc]
            exact ihn (i + 1) s1 _ g3 (g5.imp (by simpa using hk))
          | brk =>
            refine ⟨g1, fun fl s' he => ?_⟩
            simp only [Out.ok.injEq, Prod.mk.injEq] at he
            obtain ⟨rfl, rfl⟩ := he
            exact ⟨g3, Holds.joinR ⟨τ, g4, g5⟩⟩
          | ret v =>
            refine ⟨g1, fun fl s' he => ?_⟩
            simp only [Out.ok.injEq, Prod.mk.injEq] at he
            obtain ⟨rfl, rfl⟩ := he
            exact ⟨g3, τ, g4, g5⟩
        all_goals exact ⟨g1, fun fl s' he => by simp at he⟩
    cases hi with
    | none => exact key _ (by simp) _ _ s t hs h2
    | some hi =>
      simp only [exec, work]
      rcases evalAtom s.env hi with (_ | _ | _ | _ | _ | _ | _) | e | p | _
      case ok.nat m =>
        refine key _ ?_ _ _ s t hs h2
        intro s s' fl h
        simp only [Out.ok.injEq, Prod.mk.injEq] at h
        exact ⟨h.1.symm, h.2⟩
      all_goals exact ⟨h.total, fun fl s' he => by simp at he⟩
  | drain v x body ih =>
    intro σ s t hs h hok
    simp only [budget, Bool.and_eq_true, kept] at hok ⊢
    generalize keep K (budget K r body) σ = σ2 at hok
    have h2 := h.imp hok.2.1
    have key : ∀ (l : List Node) s t, s.ps.In C.toks → Holds pot p0 K Bl Bh σ2 s.ps.pos t →
        t + drainWork (work C w body) (exec C body) x l s ≤ pot p0 + K * Bl ∧
        ∀ fl s', drainLoop (exec C body) x l s = .ok (fl, s') → s'.ps.In C.toks ∧
          ∃ τ, (⟨joinPace K (some σ2) (budget K r body σ2).brk, none, (budget K r body σ2).ret, true⟩ : Budget).at fl
            = some τ ∧ Holds pot p0 K Bl Bh τ s'.ps.pos
              (t + drainWork (work C w body) (exec C body) x l s) := by
      intro l
      induction l with
      | nil =>
        intro s t hs h
        refine ⟨h.total, fun fl s' he => ?_⟩
        simp only [drainLoop, Out.ok.injEq, Prod.mk.injEq] at he
        obtain ⟨rfl, rfl⟩ := he
        exact ⟨hs, Holds.joinL ⟨σ2, rfl, h⟩⟩
      | cons n l ihn =>
        intro s t hs h
        obtain ⟨g1, g2⟩ := ih σ2 { s with env := s.env.set x (.node n) } t hs h hok.1
        simp only [drainLoop, drainWork]
        rcases hx : exec C body { s with env := s.env.set x (.node n) } with ⟨f1, s1⟩ | e | p | _
        · obtain ⟨g3, τ, g4, g5⟩ := g2 f1 s1 hx
          cases f1 with
          | norm =>
            simp only [Budget.at] at g4
            have hk := hok.2.2
            rw [g4] at hk
            dsimp only
            rw [← Nat.add_assoc]
            exact ihn s1 _ g3 (g5.imp (by simpa using hk))
          | brk =>
            refine ⟨g1, fun fl s' he => ?_⟩
            simp only [Out.ok.injEq, Prod.mk.injEq] at he
            obtain ⟨rfl, rfl⟩ := he
            exact ⟨g3, Holds.joinR ⟨τ, g4, g5⟩⟩
          | ret v =>
            refine ⟨g1, fun fl s' he => ?_⟩
            simp only [Out.ok.injEq, Prod.mk.injEq] at he
            obtain ⟨rfl, rfl⟩ := he
            exact ⟨g3, τ, g4, g5⟩
        all_goals exact ⟨g1, fun fl s' he => by simp at he⟩
    simp only [exec, work]
    rcases s.env v with _ | _ | ns | _ | _ | _ | _
    case vec => exact key _ { s with env := s.env.set v (.vec []) } t hs h2
    all_goals exact ⟨h.total, fun fl s' he => by simp at he⟩
  | tryElse x f args hd ih =>
    intro σ s t hs h hok
    simp [budget] at hok

/-! ### Potentials -/

/-- What a call of a function of this rank may cost at the place where it is called. -/
def cost : Nat → Nat
  | 0 => 1
  | r + 1 => 1 + slack * cost r

/-- The cost of calls at the place where a function of this rank is called. -/
def lowCost : Nat → Nat
  | 0 => 0
  | r + 1 => cost r

/-- What a move pays for. -/
def fee : Nat := slack * cost 3 + 1

/-- The potential of the tokens from here on. -/
def potential (U : Unicode) : List Token → Nat
  | [] => 0
  | t :: ts => (if Spec.opensQuery U (t :: ts) then 2 else 1) * (fee + potential U ts)

theorem potential_le (U : Unicode) (ts : List Token) :
    potential U ts ≤ fee * ts.length * 2 ^ Spec.openings U ts := by
  induction ts with
  | nil => simp [potential]
  | cons t ts ih =>
    simp only [potential, Spec.openings, List.length_cons]
    have h1 : 1 ≤ 2 ^ Spec.openings U ts := Nat.one_le_two_pow
    have h2 : fee + potential U ts ≤ fee * (ts.length + 1) * 2 ^ Spec.openings U ts := by
      have : fee ≤ fee * 2 ^ Spec.openings U ts := Nat.le_mul_of_pos_right _ h1
      have e : fee * (ts.length + 1) * 2 ^ Spec.openings U ts
          = fee * ts.length * 2 ^ Spec.openings U ts + fee * 2 ^ Spec.openings U ts := by
        rw [Nat.mul_add, Nat.add_mul, Nat.mul_one]
      omega
    split
    · rw [Nat.add_comm 1, Nat.pow_succ]
      calc 2 * (fee + potential U ts) ≤ 2 * (fee * (ts.length + 1) * 2 ^ Spec.openings U ts) :=
            Nat.mul_le_mul_left _ h2
        _ = fee * (ts.length + 1) * (2 ^ Spec.openings U ts * 2) := by
          rw [Nat.mul_comm (2 ^ _) 2, Nat.mul_left_comm]
    · simpa using h2

/-- The potential of a place in the list. -/
def potFrom (U : Unicode) (toks : List Token) (p : Nat) : Nat := potential U (toks.drop p)

/-- The potential of a place without the right to try twice there. -/
def potOnce (U : Unicode) (toks : List Token) (p : Nat) : Nat := fee + potFrom U toks (p + 1)

/-- The potential without the right to try twice at `q`. -/
def potAt (U : Unicode) (toks : List Token) (q p : Nat) : Nat :=
  if p = q then potOnce U toks q else potFrom U toks p

theorem potFrom_eq (U : Unicode) (toks : List Token) {p : Nat} (h : p < toks.length) :
    potFrom U toks p = (if Spec.opensQuery U (toks.drop p) then 2 else 1) * potOnce U toks p := by
  unfold potFrom potOnce
  rw [List.drop_eq_getElem_cons h]
  rfl

theorem potOnce_le (U : Unicode) (toks : List Token) {p : Nat} (h : p < toks.length) :
    potOnce U toks p ≤ potFrom U toks p := by
  rw [potFrom_eq U toks h]
  split <;> omega

theorem potFrom_anti (U : Unicode) (toks : List Token) {p q : Nat} (hpq : p ≤ q) :
    potFrom U toks q ≤ potFrom U toks p := by
  induction q with
  | zero => obtain rfl : p = 0 := by omega
            exact Nat.le_refl _
  | succ q ih =>
    rcases Nat.eq_or_lt_of_le hpq with rfl | hlt
    · exact Nat.le_refl _
    · have := ih (by omega)
      by_cases hq : q < toks.length
      · have := potOnce_le U toks hq
        unfold potOnce at this
        omega
      · have h0 : potFrom U toks (q + 1) = 0 := by
          unfold potFrom; rw [List.drop_eq_nil_of_le (by omega)]; rfl
        omega

theorem potFrom_move (U : Unicode) (toks : List Token) {p q : Nat} (hpq : p < q) :
    potFrom U toks q + fee ≤ potOnce U toks p := by
  have := potFrom_anti U toks (p := p + 1) (q := q) (by omega)
  unfold potOnce
  omega

theorem cost_mono {a b : Nat} (h : a ≤ b) : cost a ≤ cost b := by
  induction b with
  | zero => obtain rfl : a = 0 := by omega
            exact Nat.le_refl _
  | succ b ih =>
    rcases Nat.eq_or_lt_of_le h with rfl | hlt
    · exact Nat.le_refl _
    · have := ih (by omega)
      simp only [cost, slack]
      omega

/-- Without the right to try twice is stronger than with it. -/
theorem Bounded.of_once {call : Fn → List Val → PS → Out (Val × PS)} {w : Fn → List Val → PS → Nat}
    {U : Unicode} {toks : List Token} {X : Nat} {g : Fn} {vs : List Val} {ps : PS} (hs : ps.In toks)
    (h : Bounded call w (potAt U toks ps.pos) X g vs ps) : Bounded call w (potFrom U toks) X g vs ps := by
  have h0 := potOnce_le U toks hs
  obtain ⟨h1, h2⟩ := h
  simp only [potAt, if_true] at h1
  refine ⟨by omega, fun v ps' hx => ?_⟩
  have h3 := h2 v ps' hx
  simp only [potAt, if_true] at h3
  split at h3
  · rename_i he; rw [he]; omega
  · omega

theorem Bounded.mono {call : Fn → List Val → PS → Out (Val × PS)} {w : Fn → List Val → PS → Nat}
    {pot : Nat → Nat} {X Y : Nat} {g : Fn} {vs : List Val} {ps : PS} (h : Bounded call w pot X g vs ps)
    (hXY : X ≤ Y) : Bounded call w pot Y g vs ps := by
  obtain ⟨h1, h2⟩ := h
  exact ⟨by omega, fun v ps' hx => by have := h2 v ps' hx; omega⟩

/-- Beyond `q` the two potentials agree. -/
theorem Bounded.beyond {call : Fn → List Val → PS → Out (Val × PS)} {w : Fn → List Val → PS → Nat}
    {U : Unicode} {toks : List Token} {X q : Nat} {g : Fn} {vs : List Val} {ps : PS}
    (hm : MonoCall toks call) (hs : ps.In toks) (hq : q < ps.pos)
    (h : Bounded call w (potFrom U toks) X g vs ps) : Bounded call w (potAt U toks q) X g vs ps := by
  obtain ⟨h1, h2⟩ := h
  have e : potAt U toks q ps.pos = potFrom U toks ps.pos := by
    unfold potAt; rw [if_neg (by omega)]
  refine ⟨by rw [e]; exact h1, fun v ps' hx => ?_⟩
  have hp := (hm g vs ps v ps' hs hx).2
  have e' : potAt U toks q ps'.pos = potFrom U toks ps'.pos := by
    unfold potAt; rw [if_neg (by omega)]
  rw [e, e']
  exact h2 v ps' hx

end Verif
