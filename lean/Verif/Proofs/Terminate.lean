import Verif.Proofs.Core
/-!
Termination of the parser.  `progress` is an executable analysis of commands: which functions are
called before the position has moved, and whether every iteration of an unbounded loop moves it.
-/
namespace Verif
open Core Interp

/-- Result of `progress`: for each way of leaving the command, has the position certainly moved since
the reference point (`none`: the command is never left that way); the functions called before it
moved; do all loops make progress. -/
structure Progress where
  norm : Option Bool
  brk : Option Bool
  ret : Option Bool
  calls : List Fn
  ok : Bool

/-- Join of two control flow paths. -/
def joinFlag : Option Bool → Option Bool → Option Bool
  | none, b => b
  | a, none => a
  | some a, some b => some (a && b)

/-- The function a right-hand side calls. -/
def Exp.calls : Exp → List Fn
  | .call f _ => [f]
  | _ => []

/-- Each iteration of an unbounded `for x in lo..` starts by looking at token `x + _`. -/
def scanGuarded (x : Var) : Cmd → Bool
  | .ite (.up (.var y _) _) _ _ => x == y
  | _ => false

/-- The analysis; `a` says whether the position has moved already. -/
def progress : Cmd → Bool → Progress
  | .skip, a => ⟨some a, none, none, [], true⟩
  | .seq x y, a =>
    let r := progress x a
    match r.norm with
    | none => r
    | some a' =>
      let q := progress y a'
      ⟨q.norm, joinFlag r.brk q.brk, joinFlag r.ret q.ret, r.calls ++ q.calls, r.ok && q.ok⟩
  | .next, _ => ⟨some true, none, none, [], true⟩
  | .set _ e, a => ⟨some a, none, none, if a then [] else e.calls, true⟩
  | .push _ _ e, a => ⟨some a, none, none, if a then [] else e.calls, true⟩
  | .pushVec _ _ e, a => ⟨some a, none, none, if a then [] else e.calls, true⟩
  | .append _ e, a => ⟨some a, none, none, if a then [] else e.calls, true⟩
  | .setType .., a => ⟨some a, none, none, [], true⟩
  | .ite _ x y, a =>
    let r := progress x a
    let q := progress y a
    ⟨joinFlag r.norm q.norm, joinFlag r.brk q.brk, joinFlag r.ret q.ret, r.calls ++ q.calls,
      r.ok && q.ok⟩
  | .loop x, a =>
    let r := progress x a
    let q := progress x false
    ⟨r.brk, none, r.ret, r.calls, r.ok && q.norm != some false⟩
  | .brk, a => ⟨none, some a, none, [], true⟩
  | .ret e, a => ⟨none, none, some a, if a then [] else e.calls, true⟩
  | .fail .., _ => ⟨none, none, none, [], true⟩
  | .scan x _ hi body, a =>
    let r := progress body a
    ⟨some a, none, r.ret, r.calls, r.ok && (hi.isSome || scanGuarded x body)⟩
  | .drain _ _ body, a =>
    let r := progress body a
    ⟨some a, none, r.ret, r.calls, r.ok⟩
  | .tryElse _ f _ h, a =>
    let r := progress h a
    ⟨joinFlag (some a) r.norm, r.brk, r.ret, (if a then [] else [f]) ++ r.calls, r.ok⟩

/-- Order in which functions may call each other without moving. -/
def rank : Fn → Nat
  | .parse_exprs | .parse_table => 3
  | .parse_expr | .parse_statement => 2
  | .parse_identifier | .parse_pattern | .parse_select_statement | .parse_with_pipe_operator
  | .parse_match_recognize_pipe_operator | .parse_loop_statement | .parse_repeat_statement => 1
  | _ => 0

/-- The check for one function. -/
def progressOk (defs : Fn → FunDef) (f : Fn) : Bool :=
  let r := progress (defs f).body false
  r.ok && r.calls.all fun g => decide (rank g < rank f)

theorem progressOk_all : ∀ f ∈ Fn.all, progressOk Program.defs f = true := by decide +kernel

theorem mem_fn_all (f : Fn) : f ∈ Fn.all := by cases f <;> decide

/-- Has the position moved as the analysis says? -/
def FlagOk (p0 : Nat) : Option Bool → Nat → Prop
  | none, _ => False
  | some true, p => p0 < p
  | some false, p => p0 ≤ p

theorem FlagOk.le {p0 : Nat} {a : Option Bool} {p : Nat} (h : FlagOk p0 a p) : p0 ≤ p := by
  cases a with
  | none => exact h.elim
  | some a => cases a <;> simp [FlagOk] at h <;> omega

theorem FlagOk.mono {p0 : Nat} {a : Bool} {p q : Nat} (h : FlagOk p0 (some a) p) (hpq : p ≤ q) :
    FlagOk p0 (some a) q := by
  cases a <;> simp [FlagOk] at h ⊢ <;> omega

theorem FlagOk.left {p0 : Nat} {a : Option Bool} {p : Nat} (b : Option Bool) (h : FlagOk p0 a p) :
    FlagOk p0 (joinFlag a b) p := by
  rcases a with _ | _ | _ <;> rcases b with _ | _ | _ <;> simp_all [FlagOk, joinFlag] <;> omega

theorem FlagOk.right {p0 : Nat} {b : Option Bool} {p : Nat} (a : Option Bool) (h : FlagOk p0 b p) :
    FlagOk p0 (joinFlag a b) p := by
  rcases a with _ | _ | _ <;> rcases b with _ | _ | _ <;> simp_all [FlagOk, joinFlag] <;> omega

/-- The flag of the analysis that belongs to a way of leaving a command. -/
def Progress.at (r : Progress) : Flow → Option Bool
  | .norm => r.norm
  | .brk => r.brk
  | .ret _ => r.ret

/-- Calls never move backwards. -/
def MonoCall (toks : List Token) (call : Fn → List Val → PS → Out (Val × PS)) : Prop :=
  ∀ f vs s v s', s.In toks → call f vs s = .ok (v, s') → s'.In toks ∧ s.pos ≤ s'.pos

theorem bind_ok_inv {α β : Type} {x : Out α} {f : α → Out β} {b : β} (h : (x >>= f) = .ok b) :
    ∃ a, x = .ok a ∧ f a = .ok b := by
  cases x <;> simp_all

theorem evalExp_mono {C : Ctx} (hm : MonoCall C.toks C.call) {s : St} {e : Exp} {v : Val} {s' : St}
    (hs : s.ps.In C.toks) (h : evalExp C s e = .ok (v, s')) :
    s'.ps.In C.toks ∧ s.ps.pos ≤ s'.ps.pos := by
  cases e with
  | call f args =>
    simp only [evalExp] at h
    obtain ⟨vs, _, h⟩ := bind_ok_inv h
    obtain ⟨⟨w, ps⟩, h1, h⟩ := bind_ok_inv h
    simp only [Out.ok.injEq, Prod.mk.injEq] at h
    obtain ⟨-, rfl⟩ := h
    exact hm f vs _ _ _ hs h1
  | pop x =>
    simp only [evalExp] at h
    split at h
    · split at h
      · simp only [Out.ok.injEq, Prod.mk.injEq] at h
        obtain ⟨-, rfl⟩ := h
        exact ⟨hs, Nat.le_refl _⟩
      · simp at h
    · simp at h
  | construct nt =>
    simp only [evalExp] at h
    obtain ⟨a, _, h⟩ := bind_ok_inv h
    simp only [Out.ok.injEq, Prod.mk.injEq] at h
    obtain ⟨-, rfl⟩ := h
    exact ⟨hs, Nat.le_refl _⟩
  | prec nt =>
    simp only [evalExp] at h
    obtain ⟨a, _, h⟩ := bind_ok_inv h
    obtain ⟨a, _, h⟩ := bind_ok_inv h
    simp only [Out.ok.injEq, Prod.mk.injEq] at h
    obtain ⟨-, rfl⟩ := h
    exact ⟨hs, Nat.le_refl _⟩
  | upperLit nt =>
    simp only [evalExp] at h
    obtain ⟨a, _, h⟩ := bind_ok_inv h
    simp only [Out.ok.injEq, Prod.mk.injEq] at h
    obtain ⟨-, rfl⟩ := h
    exact ⟨hs, Nat.le_refl _⟩
  | cond nt =>
    simp only [evalExp] at h
    obtain ⟨a, _, h⟩ := bind_ok_inv h
    simp only [Out.ok.injEq, Prod.mk.injEq] at h
    obtain ⟨-, rfl⟩ := h
    exact ⟨hs, Nat.le_refl _⟩
  | _ =>
    simp only [evalExp, Out.ok.injEq, Prod.mk.injEq] at h
    obtain ⟨-, rfl⟩ := h
    exact ⟨hs, Nat.le_refl _⟩

/-- Positions only grow, and as fast as the analysis says. -/
theorem exec_progress {C : Ctx} (hm : MonoCall C.toks C.call) (c : Cmd) :
    ∀ (p0 : Nat) (a : Bool) (s : St) (fl : Flow) (s' : St), s.ps.In C.toks →
      FlagOk p0 (some a) s.ps.pos → exec C c s = .ok (fl, s') →
      s'.ps.In C.toks ∧ s.ps.pos ≤ s'.ps.pos ∧ FlagOk p0 ((progress c a).at fl) s'.ps.pos := by
  induction c with
  | skip =>
    intro p0 a s fl s' hs hf h
    simp only [exec, Out.ok.injEq, Prod.mk.injEq] at h
    obtain ⟨rfl, rfl⟩ := h
    exact ⟨hs, Nat.le_refl _, hf⟩
  | seq x y ihx ihy =>
    intro p0 a s fl s' hs hf h
    simp only [exec] at h
    rcases hx : exec C x s with ⟨f1, s1⟩ | e | p | _ <;> rw [hx] at h <;> try (simp only [reduceCtorEq] at h)
    obtain ⟨h1, h2, h3⟩ := ihx p0 a s f1 s1 hs hf hx
    cases f1 with
    | norm =>
      simp only at h
      simp only [Progress.at] at h3
      simp only [progress]
      rcases hn : (progress x a).norm with _ | a'
      · rw [hn] at h3; exact h3.elim
      · rw [hn] at h3
        obtain ⟨g1, g2, g3⟩ := ihy p0 a' s1 fl s' h1 h3 h
        refine ⟨g1, by omega, ?_⟩
        cases fl <;> simp only [Progress.at] at g3 ⊢
        · exact g3
        · exact g3.right _
        · exact g3.right _
    | brk =>
      simp only [Out.ok.injEq, Prod.mk.injEq] at h
      obtain ⟨rfl, rfl⟩ := h
      refine ⟨h1, h2, ?_⟩
      simp only [progress]
      simp only [Progress.at] at h3
      split
      · exact h3
      · exact h3.left _
    | ret v =>
      simp only [Out.ok.injEq, Prod.mk.injEq] at h
      obtain ⟨rfl, rfl⟩ := h
      refine ⟨h1, h2, ?_⟩
      simp only [progress]
      simp only [Progress.at] at h3
      split
      · exact h3
      · exact h3.left _
  | next =>
    intro p0 a s fl s' hs hf h
    simp only [exec] at h
    obtain ⟨ps, h1, h⟩ := bind_ok_inv h
    simp only [Out.ok.injEq, Prod.mk.injEq] at h
    obtain ⟨rfl, rfl⟩ := h
    rcases nextToken_cases C.toks s.ps hs with ⟨ps', g1, g2, g3, g4⟩ | ⟨t, g1, g2⟩
    · rw [g1] at h1
      cases h1
      have := hf.le
      exact ⟨g4, by dsimp only; omega, by simp only [progress, Progress.at, FlagOk]; omega⟩
    · rw [g2] at h1; cases h1
  | set x e =>
    intro p0 a s fl s' hs hf h
    simp only [exec] at h
    obtain ⟨⟨v, s1⟩, h1, h⟩ := bind_ok_inv h
    simp only [Out.ok.injEq, Prod.mk.injEq] at h
    obtain ⟨rfl, rfl⟩ := h
    obtain ⟨g1, g2⟩ := evalExp_mono hm hs h1
    exact ⟨g1, g2, hf.mono g2⟩
  | push x k e =>
    intro p0 a s fl s' hs hf h
    simp only [exec] at h
    obtain ⟨⟨v, s1⟩, h1, h⟩ := bind_ok_inv h
    obtain ⟨g1, g2⟩ := evalExp_mono hm hs h1
    dsimp only at h
    split at h <;> simp only [Out.ok.injEq, Prod.mk.injEq, reduceCtorEq] at h
    obtain ⟨rfl, rfl⟩ := h
    exact ⟨g1, g2, hf.mono g2⟩
  | pushVec x k e =>
    intro p0 a s fl s' hs hf h
    simp only [exec] at h
    obtain ⟨⟨v, s1⟩, h1, h⟩ := bind_ok_inv h
    obtain ⟨g1, g2⟩ := evalExp_mono hm hs h1
    dsimp only at h
    split at h <;> simp only [Out.ok.injEq, Prod.mk.injEq, reduceCtorEq] at h
    obtain ⟨rfl, rfl⟩ := h
    exact ⟨g1, g2, hf.mono g2⟩
  | append x e =>
    intro p0 a s fl s' hs hf h
    simp only [exec] at h
    obtain ⟨⟨v, s1⟩, h1, h⟩ := bind_ok_inv h
    obtain ⟨g1, g2⟩ := evalExp_mono hm hs h1
    dsimp only at h
    split at h <;> simp only [Out.ok.injEq, Prod.mk.injEq, reduceCtorEq] at h
    obtain ⟨rfl, rfl⟩ := h
    exact ⟨g1, g2, hf.mono g2⟩
  | setType x nt =>
    intro p0 a s fl s' hs hf h
    simp only [exec] at h
    split at h <;> simp only [Out.ok.injEq, Prod.mk.injEq, reduceCtorEq] at h
    obtain ⟨rfl, rfl⟩ := h
    exact ⟨hs, Nat.le_refl _, hf⟩
  | ite c x y ihx ihy =>
    intro p0 a s fl s' hs hf h
    simp only [exec] at h
    simp only [progress]
    split at h <;> try (simp only [reduceCtorEq] at h)
    · obtain ⟨g1, g2, g3⟩ := ihx p0 a s fl s' hs hf h
      refine ⟨g1, g2, ?_⟩
      cases fl <;> exact g3.left _
    · obtain ⟨g1, g2, g3⟩ := ihy p0 a s fl s' hs hf h
      refine ⟨g1, g2, ?_⟩
      cases fl <;> exact g3.right _
  | loop x ih =>
    intro p0 a s fl s' hs hf h
    simp only [exec] at h
    generalize C.fuel = n at h
    induction n generalizing s with
    | zero => simp [iterate] at h
    | succ n ihn =>
      simp only [iterate] at h
      rcases hx : exec C x s with ⟨f1, s1⟩ | e | p | _ <;> rw [hx] at h <;>
        try (simp only [reduceCtorEq] at h)
      obtain ⟨h1, h2, h3⟩ := ih p0 a s f1 s1 hs hf hx
      cases f1 with
      | norm =>
        obtain ⟨g1, g2, g3⟩ := ihn s1 h1 (hf.mono h2) h
        exact ⟨g1, by omega, g3⟩
      | brk =>
        simp only [Out.ok.injEq, Prod.mk.injEq] at h
        obtain ⟨rfl, rfl⟩ := h
        exact ⟨h1, h2, h3⟩
      | ret v =>
        simp only [Out.ok.injEq, Prod.mk.injEq] at h
        obtain ⟨rfl, rfl⟩ := h
        exact ⟨h1, h2, h3⟩
  | brk =>
    intro p0 a s fl s' hs hf h
    simp only [exec, Out.ok.injEq, Prod.mk.injEq] at h
    obtain ⟨rfl, rfl⟩ := h
    exact ⟨hs, Nat.le_refl _, hf⟩
  | ret e =>
    intro p0 a s fl s' hs hf h
    simp only [exec] at h
    obtain ⟨⟨v, s1⟩, h1, h⟩ := bind_ok_inv h
    simp only [Out.ok.injEq, Prod.mk.injEq] at h
    obtain ⟨rfl, rfl⟩ := h
    obtain ⟨g1, g2⟩ := evalExp_mono hm hs h1
    exact ⟨g1, g2, hf.mono g2⟩
  | fail o line =>
    intro p0 a s fl s' hs hf h
    simp only [exec] at h
    obtain ⟨t, h1, h⟩ := bind_ok_inv h
    simp at h
  | scan x lo hi body ih =>
    intro p0 a s fl s' hs hf h
    have key : ∀ (d : St → Out (Flow × St)),
        (∀ s s' fl, d s = .ok (fl, s') → fl = .norm ∧ s = s') →
        ∀ n i s, s.ps.In C.toks → FlagOk p0 (some a) s.ps.pos →
        scanLoop (exec C body) x d n i s = .ok (fl, s') →
        s'.ps.In C.toks ∧ s.ps.pos ≤ s'.ps.pos ∧
          FlagOk p0 ((progress (.scan x lo hi body) a).at fl) s'.ps.pos := by
      intro d hd n
      induction n with
      | zero =>
        intro i s hs hf h
        obtain ⟨rfl, rfl⟩ := hd _ _ _ h
        exact ⟨hs, Nat.le_refl _, hf⟩
      | succ n ihn =>
        intro i s hs hf h
        simp only [scanLoop] at h
        rcases hx : exec C body { s with env := s.env.set x (.nat i) } with ⟨f1, s1⟩ | e | p | _ <;>
          rw [hx] at h <;> try (simp only [reduceCtorEq] at h)
        obtain ⟨h1, h2, h3⟩ := ih p0 a { s with env := s.env.set x (.nat i) } f1 s1 hs hf hx
        dsimp only at h2
        cases f1 with
        | norm =>
          obtain ⟨g1, g2, g3⟩ := ihn _ s1 h1 (hf.mono h2) h
          exact ⟨g1, by omega, g3⟩
        | brk =>
          simp only [Out.ok.injEq, Prod.mk.injEq] at h
          obtain ⟨rfl, rfl⟩ := h
          exact ⟨h1, h2, hf.mono h2⟩
        | ret v =>
          simp only [Out.ok.injEq, Prod.mk.injEq] at h
          obtain ⟨rfl, rfl⟩ := h
          exact ⟨h1, h2, h3⟩
    cases hi with
    | none => exact key _ (by simp) _ _ s hs hf h
    | some hi =>
      simp only [exec] at h
      split at h <;> try (simp only [reduceCtorEq] at h)
      refine key _ ?_ _ _ s hs hf h
      intro s s' fl h
      simp only [Out.ok.injEq, Prod.mk.injEq] at h
      exact ⟨h.1.symm, h.2⟩
  | drain v x body ih =>
    intro p0 a s fl s' hs hf h
    simp only [exec] at h
    split at h <;> try (simp only [reduceCtorEq] at h)
    rename_i ns _
    have key : ∀ (l : List Node) s, s.ps.In C.toks → FlagOk p0 (some a) s.ps.pos →
        drainLoop (exec C body) x l s = .ok (fl, s') →
        s'.ps.In C.toks ∧ s.ps.pos ≤ s'.ps.pos ∧
          FlagOk p0 ((progress (.drain v x body) a).at fl) s'.ps.pos := by
      intro l
      induction l with
      | nil =>
        intro s hs hf h
        simp only [drainLoop, Out.ok.injEq, Prod.mk.injEq] at h
        obtain ⟨rfl, rfl⟩ := h
        exact ⟨hs, Nat.le_refl _, hf⟩
      | cons n l ihn =>
        intro s hs hf h
        simp only [drainLoop] at h
        rcases hx : exec C body { s with env := s.env.set x (.node n) } with ⟨f1, s1⟩ | e | p | _ <;>
          rw [hx] at h <;> try (simp only [reduceCtorEq] at h)
        obtain ⟨h1, h2, h3⟩ := ih p0 a { s with env := s.env.set x (.node n) } f1 s1 hs hf hx
        dsimp only at h2
        cases f1 with
        | norm =>
          obtain ⟨g1, g2, g3⟩ := ihn s1 h1 (hf.mono h2) h
          exact ⟨g1, by omega, g3⟩
        | brk =>
          simp only [Out.ok.injEq, Prod.mk.injEq] at h
          obtain ⟨rfl, rfl⟩ := h
          exact ⟨h1, h2, hf.mono h2⟩
        | ret v =>
          simp only [Out.ok.injEq, Prod.mk.injEq] at h
          obtain ⟨rfl, rfl⟩ := h
          exact ⟨h1, h2, h3⟩
    exact key _ { s with env := s.env.set v (.vec []) } hs hf h
  | tryElse x f args hd ih =>
    intro p0 a s fl s' hs hf h
    simp only [exec] at h
    obtain ⟨vs, _, h⟩ := bind_ok_inv h
    rcases hx : C.call f vs s.ps with ⟨v, s1⟩ | e | p | _ <;> rw [hx] at h <;>
      try (simp only [reduceCtorEq] at h)
    · simp only [Out.ok.injEq, Prod.mk.injEq] at h
      obtain ⟨rfl, rfl⟩ := h
      obtain ⟨g1, g2⟩ := hm f vs _ _ _ hs hx
      exact ⟨g1, g2, (hf.mono g2).left _⟩
    · obtain ⟨g1, g2, g3⟩ := ih p0 a s fl s' hs hf h
      refine ⟨g1, g2, ?_⟩
      cases fl
      · exact g3.right _
      · exact g3
      · exact g3

theorem bind_timeout_inv {α β : Type} {x : Out α} {f : α → Out β} (h : (x >>= f) = .timeout) :
    x = .timeout ∨ ∃ a, x = .ok a ∧ f a = .timeout := by
  cases x <;> simp_all

theorem evalOff_ne_timeout (env : Env) (o : Off) : evalOff env o ≠ .timeout := by
  cases o <;> simp only [evalOff, ne_eq, reduceCtorEq, not_false_eq_true]
  split <;> simp

theorem offTok_ne_timeout {C : Ctx} {s : St} (hs : s.ps.In C.toks) (o : Off) :
    offTok C s o ≠ .timeout := by
  unfold offTok
  have := evalOff_ne_timeout s.env o
  cases h : evalOff s.env o <;> simp_all
  exact getToken_ne_timeout _ _ hs _

theorem evalAtom_ne_timeout (env : Env) (a : Atom) : evalAtom env a ≠ .timeout := by
  cases a <;> simp only [evalAtom, ne_eq, reduceCtorEq, not_false_eq_true] <;> split <;> simp

theorem evalAtoms_ne_timeout (env : Env) (as : List Atom) : evalAtoms env as ≠ .timeout := by
  induction as with
  | nil => simp [evalAtoms]
  | cons a as ih =>
    intro h
    simp only [evalAtoms] at h
    rcases bind_timeout_inv h with h | ⟨v, _, h⟩
    · exact evalAtom_ne_timeout _ _ h
    · rcases bind_timeout_inv h with h | ⟨v, _, h⟩
      · exact ih h
      · simp at h

theorem evalCond_ne_timeout {C : Ctx} {s : St} (hs : s.ps.In C.toks) (c : Cond) :
    evalCond C s c ≠ .timeout := by
  induction c with
  | up o ks | raw o ks | isIdent o | isStr o | isNum o =>
    intro h
    simp only [evalCond] at h
    rcases bind_timeout_inv h with h | ⟨v, _, h⟩
    · exact offTok_ne_timeout hs _ h
    · simp at h
  | upVar o x =>
    intro h
    simp only [evalCond] at h
    rcases bind_timeout_inv h with h | ⟨v, _, h⟩
    · exact offTok_ne_timeout hs _ h
    · split at h <;> simp at h
  | eof o =>
    intro h
    simp only [evalCond] at h
    rcases bind_timeout_inv h with h | ⟨v, _, h⟩
    · exact evalOff_ne_timeout _ _ h
    · simp at h
  | hasTok o =>
    intro h
    simp only [evalCond] at h
    rcases bind_timeout_inv h with h | ⟨v, _, h⟩
    · exact evalOff_ne_timeout _ _ h
    · have := getToken_ne_timeout C.toks s.ps hs v
      split at h <;> simp_all
  | bvar x | lenPos x | lenOne x | strIs x k | typeIs x nt | leftmostIs x nt | hasAnyKey x ks =>
    simp only [evalCond]
    split <;> simp
  | const b => simp [evalCond]
  | precLt x =>
    intro h
    simp only [evalCond] at h
    rcases bind_timeout_inv h with h | ⟨v, _, h⟩
    · exact getPrecedence_ne_timeout _ _ _ hs _ h
    · split at h <;> simp at h
  | firstCharIs c =>
    intro h
    simp only [evalCond] at h
    rcases bind_timeout_inv h with h | ⟨v, _, h⟩
    · exact getToken_ne_timeout _ _ hs _ h
    · split at h <;> simp at h
  | lastCharIs c =>
    intro h
    simp only [evalCond] at h
    rcases bind_timeout_inv h with h | ⟨v, _, h⟩
    · exact getToken_ne_timeout _ _ hs _ h
    · split at h <;> simp at h
  | adjacent =>
    intro h
    simp only [evalCond] at h
    rcases bind_timeout_inv h with h | ⟨v, _, h⟩
    · exact getToken_ne_timeout _ _ hs _ h
    · rcases bind_timeout_inv h with h | ⟨v, _, h⟩
      · exact getToken_ne_timeout _ _ hs _ h
      · simp at h
  | and a b iha ihb =>
    intro h
    simp only [evalCond] at h
    rcases bind_timeout_inv h with h | ⟨v, _, h⟩
    · exact iha h
    · cases v <;> simp at h
      exact ihb h
  | or a b iha ihb =>
    intro h
    simp only [evalCond] at h
    rcases bind_timeout_inv h with h | ⟨v, _, h⟩
    · exact iha h
    · cases v <;> simp at h
      exact ihb h
  | not a ih =>
    intro h
    simp only [evalCond] at h
    rcases bind_timeout_inv h with h | ⟨v, _, h⟩
    · exact ih h
    · simp at h

/-- Calls do not run out of fuel, as long as the position is beyond `p0` or the rank is below `r`. -/
def LiveCall (toks : List Token) (call : Fn → List Val → PS → Out (Val × PS)) (p0 r : Nat) : Prop :=
  ∀ f vs s, s.In toks → p0 ≤ s.pos → (p0 < s.pos ∨ rank f < r) → call f vs s ≠ .timeout

theorem evalExp_ne_timeout {C : Ctx} {p0 r : Nat} (hl : LiveCall C.toks C.call p0 r) {s : St} {e : Exp}
    {a : Bool} (hs : s.ps.In C.toks) (hf : FlagOk p0 (some a) s.ps.pos)
    (hc : ∀ g ∈ (if a then [] else e.calls), rank g < r) : evalExp C s e ≠ .timeout := by
  cases e with
  | call f args =>
    intro h
    simp only [evalExp] at h
    rcases bind_timeout_inv h with h | ⟨vs, _, h⟩
    · exact evalAtoms_ne_timeout _ _ h
    · rcases bind_timeout_inv h with h | ⟨v, _, h⟩
      · refine hl f vs s.ps hs hf.le ?_ h
        cases a
        · right; exact hc f (by simp [Exp.calls])
        · left; exact hf
      · simp at h
  | construct nt =>
    intro h
    simp only [evalExp] at h
    rcases bind_timeout_inv h with h | ⟨vs, _, h⟩
    · exact construct_ne_timeout _ _ _ hs _ h
    · simp at h
  | pop x =>
    simp only [evalExp]
    split
    · split <;> simp
    · simp
  | prec o =>
    intro h
    simp only [evalExp] at h
    rcases bind_timeout_inv h with h | ⟨vs, _, h⟩
    · exact evalOff_ne_timeout _ _ h
    · rcases bind_timeout_inv h with h | ⟨v, _, h⟩
      · exact getPrecedence_ne_timeout _ _ _ hs _ h
      · simp at h
  | upperLit o =>
    intro h
    simp only [evalExp] at h
    rcases bind_timeout_inv h with h | ⟨vs, _, h⟩
    · exact offTok_ne_timeout hs _ h
    · simp at h
  | cond c =>
    intro h
    simp only [evalExp] at h
    rcases bind_timeout_inv h with h | ⟨vs, _, h⟩
    · exact evalCond_ne_timeout hs _ h
    · simp at h
  | _ => simp [evalExp]

/-- A guarded scan ends once the offset passes the end of the token list. -/
theorem scanGuarded_err {C : Ctx} {x : Var} {body : Cmd} (hg : scanGuarded x body = true) {s : St}
    (hs : s.ps.In C.toks) (i : Nat) (hi : C.toks.length ≤ i) :
    ∃ e, exec C body { s with env := s.env.set x (.nat i) } = .err e := by
  unfold scanGuarded at hg
  split at hg
  · rename_i y k ks a b
    obtain rfl : x = y := by simpa using hg
    simp only [exec, evalCond, offTok, evalOff, Env.set, ↓reduceIte]
    rcases getToken_cases C.toks s.ps hs (i + k) with ⟨j, t, h1, h2, h3, h4, h5, _⟩ | ⟨_, t, _, _, h2⟩
    · omega
    · rw [h2]; simp
  · simp at hg

theorem exec_ne_timeout {C : Ctx} (hm : MonoCall C.toks C.call) (hfuel : C.toks.length < C.fuel)
    {p0 r : Nat} (hl : LiveCall C.toks C.call p0 r) (c : Cmd) :
    ∀ (a : Bool) (s : St), s.ps.In C.toks → FlagOk p0 (some a) s.ps.pos →
      (progress c a).ok = true → (∀ g ∈ (progress c a).calls, rank g < r) → exec C c s ≠ .timeout := by
  induction c with
  | skip => intros; simp [exec]
  | seq x y ihx ihy =>
    intro a s hs hf hok hc
    simp only [exec]
    have hx' : (progress x a).ok = true ∧ (∀ g ∈ (progress x a).calls, rank g < r) := by
      simp only [progress] at hok hc
      rcases hn : (progress x a).norm with _ | a'
      · rw [hn] at hok hc; exact ⟨hok, hc⟩
      · rw [hn] at hok hc
        simp only [Bool.and_eq_true, List.mem_append] at hok hc
        exact ⟨hok.1, fun g hg => hc g (.inl hg)⟩
    rcases hx : exec C x s with ⟨f1, s1⟩ | e | p | _
    · cases f1 with
      | norm =>
        obtain ⟨h1, h2, h3⟩ := exec_progress hm x p0 a s .norm s1 hs hf hx
        simp only [Progress.at] at h3
        simp only [progress] at hok hc
        rcases hn : (progress x a).norm with _ | a'
        · rw [hn] at h3; exact h3.elim
        · rw [hn] at h3 hok hc
          simp only [Bool.and_eq_true, List.mem_append] at hok hc
          exact ihy a' s1 h1 h3 hok.2 fun g hg => hc g (.inr hg)
      | _ => simp
    · simp
    · simp
    · exact absurd hx (ihx a s hs hf hx'.1 hx'.2)
  | next =>
    intro a s hs hf hok hc
    simp only [exec]
    rcases nextToken_cases C.toks s.ps hs with ⟨ps', g1, _⟩ | ⟨t, g1, g2⟩ <;> simp [*]
  | set x e =>
    intro a s hs hf hok hc h
    simp only [exec] at h
    rcases bind_timeout_inv h with h | ⟨vs, _, h⟩
    · exact evalExp_ne_timeout hl hs hf hc h
    · simp at h
  | push x k e =>
    intro a s hs hf hok hc h
    simp only [exec] at h
    rcases bind_timeout_inv h with h | ⟨vs, _, h⟩
    · exact evalExp_ne_timeout hl hs hf hc h
    · split at h <;> simp at h
  | pushVec x k e =>
    intro a s hs hf hok hc h
    simp only [exec] at h
    rcases bind_timeout_inv h with h | ⟨vs, _, h⟩
    · exact evalExp_ne_timeout hl hs hf hc h
    · split at h <;> simp at h
  | append x e =>
    intro a s hs hf hok hc h
    simp only [exec] at h
    rcases bind_timeout_inv h with h | ⟨vs, _, h⟩
    · exact evalExp_ne_timeout hl hs hf hc h
    · split at h <;> simp at h
  | setType x nt =>
    intro a s hs hf hok hc h
    simp only [exec] at h
    split at h <;> simp at h
  | ite c x y ihx ihy =>
    intro a s hs hf hok hc h
    simp only [progress, Bool.and_eq_true, List.mem_append] at hok hc
    simp only [exec] at h
    have := evalCond_ne_timeout hs c
    split at h
    · exact ihx a s hs hf hok.1 (fun g hg => hc g (.inl hg)) h
    · exact ihy a s hs hf hok.2 (fun g hg => hc g (.inr hg)) h
    · simp at h
    · simp at h
    · contradiction
  | loop x ih =>
    intro a s hs hf hok hc
    simp only [progress, Bool.and_eq_true, bne_iff_ne, ne_eq] at hok hc
    have key : ∀ n s, s.ps.In C.toks → FlagOk p0 (some a) s.ps.pos →
        C.toks.length - s.ps.pos ≤ n → iterate (exec C x) n s ≠ .timeout := by
      intro n
      induction n with
      | zero => intro s hs hf hn; simp only [PS.In] at hs; omega
      | succ n ihn =>
        intro s hs hf hn
        simp only [iterate]
        rcases hx : exec C x s with ⟨f1, s1⟩ | e | p | _
        · cases f1 with
          | norm =>
            obtain ⟨h1, h2, h3⟩ := exec_progress hm x p0 a s .norm s1 hs hf hx
            have hf' : FlagOk s.ps.pos (some false) s.ps.pos := Nat.le_refl _
            obtain ⟨_, _, g3⟩ := exec_progress hm x s.ps.pos false s .norm s1 hs hf' hx
            have hlt : s.ps.pos < s1.ps.pos := by
              simp only [Progress.at] at g3
              rcases hq : (progress x false).norm with _ | _ | _
              · rw [hq] at g3; exact g3.elim
              · exact absurd hq hok.2
              · rw [hq] at g3; exact g3
            exact ihn s1 h1 (hf.mono h2) (by omega)
          | _ => simp
        · simp
        · simp
        · exact absurd hx (ih a s hs hf hok.1 hc)
    exact key _ s hs hf (by omega)
  | brk => intros; simp [exec]
  | ret e =>
    intro a s hs hf hok hc h
    simp only [exec] at h
    rcases bind_timeout_inv h with h | ⟨vs, _, h⟩
    · exact evalExp_ne_timeout hl hs hf hc h
    · simp at h
  | fail o line =>
    intro a s hs hf hok hc h
    simp only [exec] at h
    rcases bind_timeout_inv h with h | ⟨vs, _, h⟩
    · exact offTok_ne_timeout hs _ h
    · simp at h
  | scan x lo hi body ih =>
    intro a s hs hf hok hc
    simp only [progress, Bool.and_eq_true, Bool.or_eq_true] at hok hc
    cases hi with
    | none =>
      have key : ∀ n i s, s.ps.In C.toks → FlagOk p0 (some a) s.ps.pos →
          C.toks.length < i + n → 0 < n →
          scanLoop (exec C body) x (fun _ => .timeout) n i s ≠ .timeout := by
        intro n
        induction n with
        | zero => intro i s hs hf hn h0; omega
        | succ n ihn =>
          intro i s hs hf hn _
          simp only [scanLoop]
          by_cases hi : C.toks.length ≤ i
          · obtain ⟨e, he⟩ := scanGuarded_err (by simpa using hok.2) hs i hi
            rw [he]; simp
          · rcases hx : exec C body { s with env := s.env.set x (.nat i) } with ⟨f1, s1⟩ | e | p | _
            · cases f1 with
              | norm =>
                obtain ⟨h1, h2, h3⟩ := exec_progress hm body p0 a
                  { s with env := s.env.set x (.nat i) } .norm s1 hs hf hx
                exact ihn (i + 1) s1 h1 (hf.mono h2) (by omega) (by omega)
              | _ => simp
            · simp
            · simp
            · exact absurd hx (ih a _ hs hf hok.1 hc)
      exact key _ _ s hs hf (by omega) (by omega)
    | some hi =>
      have key : ∀ n i s, s.ps.In C.toks → FlagOk p0 (some a) s.ps.pos →
          scanLoop (exec C body) x (fun s => .ok (.norm, s)) n i s ≠ .timeout := by
        intro n
        induction n with
        | zero => intro i s hs hf; simp [scanLoop]
        | succ n ihn =>
          intro i s hs hf
          simp only [scanLoop]
          rcases hx : exec C body { s with env := s.env.set x (.nat i) } with ⟨f1, s1⟩ | e | p | _
          · cases f1 with
            | norm =>
              obtain ⟨h1, h2, h3⟩ := exec_progress hm body p0 a
                { s with env := s.env.set x (.nat i) } .norm s1 hs hf hx
              exact ihn (i + 1) s1 h1 (hf.mono h2)
            | _ => simp
          · simp
          · simp
          · exact absurd hx (ih a _ hs hf hok.1 hc)
      intro h
      simp only [exec] at h
      have := evalAtom_ne_timeout s.env hi
      split at h
      · exact key _ _ s hs hf h
      · simp at h
      · simp at h
      · simp at h
      · contradiction
  | drain v x body ih =>
    intro a s hs hf hok hc
    simp only [progress] at hok hc
    have key : ∀ (l : List Node) s, s.ps.In C.toks → FlagOk p0 (some a) s.ps.pos →
        drainLoop (exec C body) x l s ≠ .timeout := by
      intro l
      induction l with
      | nil => intro s hs hf; simp [drainLoop]
      | cons n l ihn =>
        intro s hs hf
        simp only [drainLoop]
        rcases hx : exec C body { s with env := s.env.set x (.node n) } with ⟨f1, s1⟩ | e | p | _
        · cases f1 with
          | norm =>
            obtain ⟨h1, h2, h3⟩ := exec_progress hm body p0 a
              { s with env := s.env.set x (.node n) } .norm s1 hs hf hx
            exact ihn s1 h1 (hf.mono h2)
          | _ => simp
        · simp
        · simp
        · exact absurd hx (ih a _ hs hf hok hc)
    simp only [exec]
    split
    · exact key _ { s with env := s.env.set v (.vec []) } hs hf
    · simp
  | tryElse x f args hd ih =>
    intro a s hs hf hok hc h
    simp only [progress, List.mem_append] at hok hc
    simp only [exec] at h
    rcases bind_timeout_inv h with h | ⟨vs, _, h⟩
    · exact evalAtoms_ne_timeout _ _ h
    · have hlive : C.call f vs s.ps ≠ .timeout := by
        refine hl f vs s.ps hs hf.le ?_
        cases a
        · right; exact hc f (.inl (by simp))
        · left; exact hf
      split at h
      · simp at h
      · exact ih a s hs hf hok (fun g hg => hc g (.inr hg)) h
      · simp at h
      · contradiction

theorem callN_mono (U : Unicode) (defs : Fn → FunDef) (toks : List Token) (fuel n : Nat) :
    MonoCall toks (callN U defs toks fuel n) := by
  induction n with
  | zero => intro f vs s v s' hs h; simp [callN] at h
  | succ n ih =>
    intro f vs s v s' hs h
    simp only [callN, runBody] at h
    split at h <;> simp only [Out.ok.injEq, Prod.mk.injEq, reduceCtorEq] at h
    rename_i w s1 hx
    obtain ⟨rfl, rfl⟩ := h
    have hf : FlagOk s.pos (some false) s.pos := Nat.le_refl _
    have := exec_progress (C := ⟨U, toks, fuel, callN U defs toks fuel n⟩) ih (defs f).body s.pos false
      ⟨s, bindParams (defs f).params vs⟩ (.ret w) s1 hs hf hx
    exact ⟨this.1, this.2.1⟩

theorem rank_le (f : Fn) : rank f ≤ 3 := by cases f <;> decide

/-- The recursion depth is at most four times the number of tokens left. -/
theorem callN_ne_timeout (U : Unicode) (defs : Fn → FunDef) (hd : ∀ f, progressOk defs f = true)
    (toks : List Token) (fuel : Nat) (hfuel : toks.length < fuel) (n : Nat) :
    ∀ f vs s, s.In toks → 4 * (toks.length - 1 - s.pos) + rank f < n →
      callN U defs toks fuel n f vs s ≠ .timeout := by
  induction n with
  | zero => intro f vs s hs hn; omega
  | succ n ih =>
    intro f vs s hs hn
    have hok := hd f
    simp only [progressOk, Bool.and_eq_true, List.all_eq_true, decide_eq_true_eq] at hok
    have hf : FlagOk s.pos (some false) s.pos := Nat.le_refl _
    have hl : LiveCall toks (callN U defs toks fuel n) s.pos (rank f) := by
      intro g ws s1 hs1 hle hor
      refine ih g ws s1 hs1 ?_
      have := rank_le g
      simp only [PS.In] at hs hs1
      rcases hor with h | h <;> omega
    have := exec_ne_timeout (C := ⟨U, toks, fuel, callN U defs toks fuel n⟩)
      (callN_mono U defs toks fuel n) hfuel hl (defs f).body false
      ⟨s, bindParams (defs f).params vs⟩ hs hf hok.1 hok.2
    simp only [callN, runBody]
    split <;> simp_all

theorem new_in (toks : List Token) (s : PS) (h : Core.new toks = .ok s) : s.In toks := by
  unfold Core.new at h
  simp only at h
  split at h
  · simp at h
  · rename_i t ht
    have : leadingComments toks < toks.length := by
      by_contra hc
      rw [List.getElem?_eq_none (by omega)] at ht
      simp at ht
    split at h <;> cases h <;> exact this

theorem new_ne_timeout (toks : List Token) : Core.new toks ≠ .timeout := by
  unfold Core.new
  simp only
  split
  · simp
  · split <;> simp

theorem parseLoop_ne_timeout (U : Unicode) (toks : List Token) (fuel depth : Nat)
    (hfuel : toks.length < fuel) (hdepth : 4 * toks.length ≤ depth) (n : Nat) :
    ∀ s ns, s.In toks → toks.length - s.pos ≤ n → parseLoop U toks fuel depth n s ns ≠ .timeout := by
  induction n with
  | zero => intro s ns hs hn; simp only [PS.In] at hs; omega
  | succ n ih =>
    intro s ns hs hn
    simp only [parseLoop]
    split
    · intro h
      rcases bind_timeout_inv h with h | ⟨vs, _, h⟩
      · exact construct_ne_timeout _ _ _ hs _ h
      · simp at h
    · have h1 : call U toks fuel depth .parse_statement [.bool true] s ≠ .timeout := by
        refine callN_ne_timeout U _ (fun f => progressOk_all f (mem_fn_all f)) toks fuel hfuel depth _ _ s
          hs ?_
        simp only [PS.In] at hs
        simp only [rank]
        omega
      split
      · rename_i stmt s1 hx
        obtain ⟨g1, g2⟩ := callN_mono U _ toks fuel depth _ _ _ _ _ hs hx
        rcases nextToken_cases toks s1 g1 with ⟨s2, k1, k2, k3, k4⟩ | ⟨t, k1, k2⟩
        · rw [k1]; exact ih s2 _ k4 (by omega)
        · rw [k2]; simp
      · simp
      · simp
      · simp
      · contradiction

theorem parseTokensWith_ne_timeout (U : Unicode) (toks : List Token) (fuel depth : Nat)
    (hfuel : toks.length < fuel) (hdepth : 4 * toks.length ≤ depth) :
    parseTokensWith U fuel depth toks ≠ .timeout := by
  intro h
  rcases bind_timeout_inv h with h | ⟨s, hs, h⟩
  · exact new_ne_timeout _ h
  · exact parseLoop_ne_timeout U toks fuel depth hfuel hdepth fuel s [] (new_in _ _ hs) (by omega) h

end Verif
