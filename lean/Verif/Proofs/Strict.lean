import Verif.Proofs.AcceptCmd
/-! A variant of the parser that does not catch errors: the acceptance analysis cannot tell the difference. -/
namespace Verif.GI
open AI Core

/-- Fail if there is no token at the offset. -/
def need (o : Off) : Cond := .or (.hasTok o) (.up o [])

/-- The condition, but looking past the last token fails. -/
def strictC : Cond → Cond
  | .eof o => .and (need o) (.eof o)
  | .hasTok o => need o
  | .and a b => .and (strictC a) (strictC b)
  | .or a b => .or (strictC a) (strictC b)
  | .not a => .not (strictC a)
  | c => c

/-- The same for right-hand sides. -/
def strictE : Exp → Exp
  | .cond c => .cond (strictC c)
  | e => e

/-- The same for commands; errors of calls are not caught. -/
def strict : Cmd → Cmd
  | .seq a b => .seq (strict a) (strict b)
  | .set x e => .set x (strictE e)
  | .push x k e => .push x k (strictE e)
  | .pushVec x k e => .pushVec x k (strictE e)
  | .append x e => .append x (strictE e)
  | .ite c a b => .ite (strictC c) (strict a) (strict b)
  | .loop a => .loop (strict a)
  | .ret e => .ret (strictE e)
  | .scan x lo hi a => .scan x lo hi (strict a)
  | .drain v x a => .drain v x (strict a)
  | .tryElse x f args _ => .set x (.call f args)
  | c => c

/-- The same for functions. -/
def strictD (d : FunDef) : FunDef := ⟨d.params, strict d.body⟩

variable {G : Tables} {call : Call}

theorem evalC_need (o : Off) (s : GS) : evalC G (need o) s = evalC G (.hasTok o) s := by
  simp only [need, evalC]
  cases evalO s o with
  | error e => rfl
  | ok k =>
    simp only
    cases ask G s k ALL 0 with
    | error e => rfl
    | ok l => rfl

theorem evalC_strict (c : Cond) : evalC G (strictC c) = evalC G c := by
  induction c with
  | eof o =>
    funext s
    simp only [strictC]
    simp only [evalC, evalC_need]
    cases ho : evalO s o with
    | error e => rfl
    | ok k =>
      simp only
      cases ha : ask G s k ALL 0 with
      | error e => rfl
      | ok l =>
        simp only [onAll, ho, ha]
        cases ask G s k (bit EOFC) (cmpl (bit EOFC)) with
        | error e => rfl
        | ok l => simp
  | hasTok o => funext s; exact evalC_need o s
  | and a b iha ihb => funext s; simp only [strictC, evalC, iha, ihb]
  | or a b iha ihb => funext s; simp only [strictC, evalC, iha, ihb]
  | not a ih => funext s; simp only [strictC, evalC, ih]
  | _ => rfl

theorem evalE_strict (s : GS) (e : Exp) : evalE G call s (strictE e) = evalE G call s e := by
  cases e with
  | cond c => simp only [strictE, evalE, evalC_strict]
  | _ => rfl

theorem evalAll_strict (e : Exp) (f : Option GV → GS → GS) (S : List GS) :
    evalAll G call (strictE e) f S = evalAll G call e f S := by
  induction S with
  | nil => rfl
  | cons s S ih => simp only [evalAll, evalE_strict, ih]

theorem evalCs_strict (c : Cond) (S : List GS) : evalCs G (strictC c) S = evalCs G c S := by
  induction S with
  | nil => rfl
  | cons s S ih => simp only [evalCs, evalC_strict, ih]

theorem evalAll_call (x : Var) (f : Fn) (args : List Atom) (S : List GS) :
    evalAll G call (.call f args) (fun v s => s.set x v) S =
      evalAll G call (.call f args) (fun _ s => s.set x none) S := by
  induction S with
  | nil => rfl
  | cons s S ih =>
    simp only [evalAll, evalE, ih]
    cases call f (args.map (evalA s)) s.X s.m with
    | error e => rfl
    | ok l =>
      simp only
      cases evalAll G call (.call f args) (fun _ s => s.set x none) S with
      | error e => rfl
      | ok q =>
        simp only [Except.ok.injEq]
        induction l with
        | nil => rfl
        | cons y l ih => simp only [List.map_cons, evalAll.putAll, ih]

theorem exec_strict (c : Cmd) : exec G call (strict c) = exec G call c := by
  induction c with
  | seq a b iha ihb => funext S; simp only [strict, exec, iha, ihb]
  | set x e => funext S; simp only [strict, exec, evalAll_strict]
  | push x k e => funext S; simp only [strict, exec, evalAll_strict]
  | pushVec x k e => funext S; simp only [strict, exec, evalAll_strict]
  | append x e => funext S; simp only [strict, exec, evalAll_strict]
  | ite c a b iha ihb => funext S; simp only [strict, exec, iha, ihb, evalCs_strict]
  | loop a ih => funext S; simp only [strict, exec, ih]
  | ret e => funext S; simp only [strict, exec, evalAll_strict]
  | scan x lo hi a ih => funext S; cases hi <;> simp only [strict, exec, ih]
  | drain v x a ih => funext S; simp only [strict, exec, ih]
  | tryElse x f args h ih => funext S; simp only [strict, exec, evalAll_call]
  | _ => rfl

theorem checkEntry_strict (tab : Fn → List Entry) (d : FunDef) (e : Entry) :
    checkEntry G tab (strictD d) e = checkEntry G tab d e := by
  simp only [checkEntry, strictD, exec_strict]

end Verif.GI
