import Verif.Model.Lib
import Mathlib.Data.List.Forall2
/-!
Relational theorem about the interpreter: if the primitive operations of the parser behave alike on
two token lists, so does every `parse_*` function.  Used for case changes, removal of comments,
relocation of tokens and (with both sides equal) for invariants of trees and errors.
-/
namespace Verif
open Core Interp

/-- Two outcomes agree; running out of fuel agrees with everything. -/
def OutRel {α β : Type} (RE : Err → Err → Prop) (R : α → β → Prop) : Out α → Out β → Prop
  | .ok a, .ok b => R a b
  | .err e, .err e' => RE e e'
  | .panic p, .panic q => p = q
  | .timeout, _ => True
  | _, .timeout => True
  | _, _ => False

section OutRel
variable {α β γ δ : Type} {RE : Err → Err → Prop}

theorem OutRel.timeout_left {R : α → β → Prop} (y : Out β) : OutRel RE R .timeout y := by
  cases y <;> trivial
theorem OutRel.timeout_right {R : α → β → Prop} (x : Out α) : OutRel RE R x .timeout := by
  cases x <;> trivial

theorem OutRel.bind {R : α → β → Prop} {Q : γ → δ → Prop} {x : Out α} {y : Out β}
    {f : α → Out γ} {g : β → Out δ}
    (h : OutRel RE R x y) (hf : ∀ a b, R a b → OutRel RE Q (f a) (g b)) :
    OutRel RE Q (x >>= f) (y >>= g) := by
  cases x <;> cases y <;> simp_all [OutRel]
  exact OutRel.timeout_right _

theorem OutRel.mono {R Q : α → β → Prop} {x : Out α} {y : Out β}
    (h : OutRel RE R x y) (hf : ∀ a b, R a b → Q a b) : OutRel RE Q x y := by
  cases x <;> cases y <;> simp_all [OutRel]
end OutRel

/-- The constants a program compares raw literals, characters and keys with. -/
structure Static where
  raw : Kw → Bool
  chr : Char → Bool
  key : Key → Bool

/-- The condition uses only admissible constants. -/
def Cond.okBy (S : Static) : Cond → Bool
  | .raw _ ks => ks.all S.raw
  | .firstCharIs c => S.chr c
  | .lastCharIs c => S.chr c
  | .hasAnyKey _ ks => ks.all S.key
  | .and a b => a.okBy S && b.okBy S
  | .or a b => a.okBy S && b.okBy S
  | .not a => a.okBy S
  | _ => true

/-- The right-hand side uses only admissible constants. -/
def Exp.okBy (S : Static) : Exp → Bool
  | .cond c => c.okBy S
  | _ => true

/-- The command uses only admissible constants. -/
def Cmd.okBy (S : Static) : Cmd → Bool
  | .seq a b => a.okBy S && b.okBy S
  | .set _ e => e.okBy S
  | .push _ k e => S.key k && e.okBy S
  | .pushVec _ k e => S.key k && e.okBy S
  | .append _ e => e.okBy S
  | .ite c a b => c.okBy S && a.okBy S && b.okBy S
  | .loop a => a.okBy S
  | .ret e => e.okBy S
  | .scan _ _ _ a => a.okBy S
  | .drain _ _ a => a.okBy S
  | .tryElse _ _ _ a => a.okBy S
  | _ => true

/-- Two tokens the parser cannot tell apart. -/
structure TokRel (U : Unicode) (S : Static) (RE : Err → Err → Prop) (t t' : Token) : Prop where
  upper : t.upper U = t'.upper U
  ident : t.isIdentifier U = t'.isIdentifier U
  str : t.isString = t'.isString
  num : t.isNumeric = t'.isNumeric
  raw : ∀ k, S.raw k = true → (t.literal == k.lit) = (t'.literal == k.lit)
  nil : t.literal = [] ↔ t'.literal = []
  first : ∀ c, S.chr c = true → (t.literal.head? = some c ↔ t'.literal.head? = some c)
  last : ∀ c, S.chr c = true → (t.literal.getLast? = some c ↔ t'.literal.getLast? = some c)
  err : ∀ m, RE ⟨t.line, t.column, .site m t.literal⟩ ⟨t'.line, t'.column, .site m t'.literal⟩

/-- What the relational theorem needs about the primitives on two token lists. -/
structure Rel where
  U : Unicode
  S : Static
  toks : List Token
  toks' : List Token
  RE : Err → Err → Prop
  RS : PS → PS → Prop
  RN : Node → Node → Prop
  tok : ∀ s s', RS s s' → ∀ n,
    OutRel RE (TokRel U S RE) (getToken toks s n) (getToken toks' s' n)
  eof : ∀ s s', RS s s' → ∀ n, isEof toks s n = isEof toks' s' n
  next : ∀ s s', RS s s' → OutRel RE RS (nextToken toks s) (nextToken toks' s')
  construct : ∀ s s', RS s s' → ∀ nt,
    OutRel RE RN (construct U toks s nt) (construct U toks' s' nt)
  adj : ∀ s s', RS s s' → ∀ a b a' b', getToken toks s 0 = .ok a → getToken toks s 1 = .ok b →
    getToken toks' s' 0 = .ok a' → getToken toks' s' 1 = .ok b' → adjacentToks a b = adjacentToks a' b'
  empty : ∀ nt, RN (Node.empty nt) (Node.empty nt)
  pushNode : ∀ n n' c c' k, S.key k = true → RN n n' → RN c c' → RN (n.pushNode k c) (n'.pushNode k c')
  pushVec : ∀ n n' cs cs' k, S.key k = true → RN n n' → List.Forall₂ RN cs cs' →
    RN (n.pushVec k cs) (n'.pushVec k cs')
  setType : ∀ n n' nt, RN n n' → RN (n.setType nt) (n'.setType nt)
  ty : ∀ n n', RN n n' → n.ty = n'.ty
  leftmost : ∀ n n', RN n n' → n.leftmostType = n'.leftmostType
  hasKey : ∀ n n' k, RN n n' → S.key k = true → (k ∈ n.kids.keys ↔ k ∈ n'.kids.keys)

namespace Rel
variable (R : Rel)

/-- Related values. -/
inductive V : Val → Val → Prop
  | unit : V .unit .unit
  | node {n n'} (h : R.RN n n') : V (.node n) (.node n')
  | vec {ns ns'} (h : List.Forall₂ R.RN ns ns') : V (.vec ns) (.vec ns')
  | bool (b) : V (.bool b) (.bool b)
  | nat (n) : V (.nat n) (.nat n)
  | str (s) : V (.str s) (.str s)
  | kws (ks) : V (.kws ks) (.kws ks)

/-- Related activations. -/
structure St2 (s s' : St) : Prop where
  ps : R.RS s.ps s'.ps
  env : ∀ x, R.V (s.env x) (s'.env x)

/-- Related flows. -/
inductive F : Flow → Flow → Prop
  | norm : F .norm .norm
  | brk : F .brk .brk
  | ret {v v'} (h : R.V v v') : F (.ret v) (.ret v')

/-- Related results of commands. -/
def FS (a b : Flow × St) : Prop := R.F a.1 b.1 ∧ R.St2 a.2 b.2

/-- Related meanings of calls. -/
def CallRel (c c' : Fn → List Val → PS → Out (Val × PS)) : Prop :=
  ∀ f vs vs' s s', List.Forall₂ R.V vs vs' → R.RS s s' →
    OutRel R.RE (fun a b => R.V a.1 b.1 ∧ R.RS a.2 b.2) (c f vs s) (c' f vs' s')

variable {R}

theorem St2.set {s s' : St} (h : R.St2 s s') (x : Var) {v v' : Val} (hv : R.V v v') :
    R.St2 { s with env := s.env.set x v } { s' with env := s'.env.set x v' } := by
  refine ⟨h.ps, fun y => ?_⟩
  simp only [Env.set]
  split
  · exact hv
  · exact h.env y

theorem inKws_eq {t t' : Token} (h : TokRel R.U R.S R.RE t t') (ks : List Kw) :
    t.inKws R.U ks = t'.inKws R.U ks := by
  simp [Token.inKws, h.upper]

theorem precTable_eq {t t' : Token} (h : TokRel R.U R.S R.RE t t') :
    precTable R.U t = precTable R.U t' := by
  unfold precTable
  simp only [inKws_eq h]

theorem getPrecedence_eq (U : Unicode) (toks : List Token) (s : PS) (n : Nat) :
    getPrecedence U toks s n = (getToken toks s n >>= fun t =>
      if t.inKws U [.NOT] then getToken toks s (n + 1) >>= fun t1 =>
        if t1.inKws U [.IN, .LIKE, .BETWEEN] then .ok 109
        else if t1.inKws U [.ENFORCED] then .ok usizeMax
        else .err ⟨t1.line, t1.column, .site 133 t1.literal⟩
      else .ok (precTable U t)) := by
  unfold getPrecedence
  cases getToken toks s n <;> simp only [Out.bind_ok, Out.bind_err, Out.bind_panic, Out.bind_timeout]
  cases getToken toks s (n + 1) <;>
    simp only [Out.bind_ok, Out.bind_err, Out.bind_panic, Out.bind_timeout]

theorem prec_rel {s s' : PS} (h : R.RS s s') (n : Nat) :
    OutRel R.RE Eq (getPrecedence R.U R.toks s n) (getPrecedence R.U R.toks' s' n) := by
  rw [getPrecedence_eq, getPrecedence_eq]
  refine (R.tok s s' h n).bind fun a b h0 => ?_
  rw [inKws_eq h0, precTable_eq h0]
  split
  · refine (R.tok s s' h (n + 1)).bind fun a b h1 => ?_
    rw [inKws_eq h1, inKws_eq h1]
    split
    · rfl
    · split
      · rfl
      · exact h1.err _
  · rfl

theorem evalOff_rel {s s' : St} (h : R.St2 s s') (o : Off) :
    evalOff s.env o = evalOff s'.env o := by
  cases o with
  | lit n => rfl
  | var x k =>
    have := h.env x
    simp only [evalOff]
    generalize s.env x = v at *
    generalize s'.env x = v' at *
    cases this <;> rfl

theorem evalOff_ne_err (env : Env) (o : Off) (e : Err) : evalOff env o ≠ .err e := by
  cases o <;> simp [evalOff]
  split <;> simp

section
variable {C C' : Ctx} (hU : C.U = R.U) (hU' : C'.U = R.U) (ht : C.toks = R.toks)
  (ht' : C'.toks = R.toks')
include hU hU' ht ht'

omit hU hU' in
theorem offTok_rel {s s' : St} (h : R.St2 s s') (o : Off) :
    OutRel R.RE (TokRel R.U R.S R.RE) (offTok C s o) (offTok C' s' o) := by
  unfold offTok
  rw [evalOff_rel h o, ht, ht']
  cases hv : evalOff s'.env o <;> simp only
  · exact R.tok _ _ h.ps _
  · exact absurd hv (evalOff_ne_err _ _ _)
  · rfl
  · trivial

theorem evalCond_rel {s s' : St} (h : R.St2 s s') (c : Cond) (hc : c.okBy R.S = true) :
    OutRel R.RE Eq (evalCond C s c) (evalCond C' s' c) := by
  induction c with
  | up o ks =>
    refine (offTok_rel ht ht' h o).bind fun a b hab => ?_
    simp only [hU, hU', OutRel, inKws_eq hab]
  | raw o ks =>
    refine (offTok_rel ht ht' h o).bind fun a b hab => ?_
    simp only [OutRel]
    simp only [Cond.okBy, List.all_eq_true] at hc
    induction ks with
    | nil => rfl
    | cons k ks ih =>
      simp only [List.any_cons]
      rw [hab.raw k (hc k (by simp)), ih (fun x hx => hc x (by simp [hx]))]
  | upVar o x =>
    refine (offTok_rel ht ht' h o).bind fun a b hab => ?_
    have := h.env x
    generalize s.env x = v at *
    generalize s'.env x = v' at *
    cases this <;> simp only [OutRel, hU, hU', inKws_eq hab]
  | isIdent o =>
    refine (offTok_rel ht ht' h o).bind fun a b hab => ?_
    simp only [hU, hU', OutRel, hab.ident]
  | isStr o =>
    refine (offTok_rel ht ht' h o).bind fun a b hab => ?_
    simp only [OutRel, hab.str]
  | isNum o =>
    refine (offTok_rel ht ht' h o).bind fun a b hab => ?_
    simp only [OutRel, hab.num]
  | eof o =>
    simp only [evalCond]
    rw [evalOff_rel h o, ht, ht']
    cases hv : evalOff s'.env o <;>
      simp only [Out.bind_ok, Out.bind_err, Out.bind_panic, Out.bind_timeout, OutRel]
    · exact R.eof _ _ h.ps _
    · exact absurd hv (evalOff_ne_err _ _ _)
  | hasTok o =>
    simp only [evalCond]
    rw [evalOff_rel h o, ht, ht']
    cases hv : evalOff s'.env o with
    | ok n =>
      have := R.tok _ _ h.ps n
      simp only [Out.bind_ok]
      cases hx : getToken R.toks s.ps n <;> cases hy : getToken R.toks' s'.ps n <;>
        simp_all [OutRel]
    | err e => exact absurd hv (evalOff_ne_err _ _ _)
    | panic p => rfl
    | timeout => trivial
  | bvar x =>
    have := h.env x
    simp only [evalCond]
    generalize s.env x = v at *
    generalize s'.env x = v' at *
    cases this <;> simp only [OutRel]
  | const b => rfl
  | precLt x =>
    simp only [evalCond]
    rw [hU, hU', ht, ht']
    refine (prec_rel h.ps 1).bind fun a b hab => ?_
    subst hab
    have := h.env x
    generalize s.env x = v at *
    generalize s'.env x = v' at *
    cases this <;> simp only [OutRel]
  | lenPos x =>
    have := h.env x
    simp only [evalCond]
    generalize s.env x = v at *
    generalize s'.env x = v' at *
    cases this with
    | vec hv => simp only [OutRel, hv.length_eq]
    | _ => simp only [OutRel]
  | lenOne x =>
    have := h.env x
    simp only [evalCond]
    generalize s.env x = v at *
    generalize s'.env x = v' at *
    cases this with
    | vec hv => simp only [OutRel, hv.length_eq]
    | _ => simp only [OutRel]
  | strIs x k =>
    have := h.env x
    simp only [evalCond]
    generalize s.env x = v at *
    generalize s'.env x = v' at *
    cases this <;> simp only [OutRel]
  | typeIs x nt =>
    have := h.env x
    simp only [evalCond]
    generalize s.env x = v at *
    generalize s'.env x = v' at *
    cases this with
    | node hv => simp only [OutRel, R.ty _ _ hv]
    | _ => simp only [OutRel]
  | leftmostIs x nt =>
    have := h.env x
    simp only [evalCond]
    generalize s.env x = v at *
    generalize s'.env x = v' at *
    cases this with
    | node hv => simp only [OutRel, R.leftmost _ _ hv]
    | _ => simp only [OutRel]
  | hasAnyKey x ks =>
    have := h.env x
    simp only [evalCond]
    generalize s.env x = v at *
    generalize s'.env x = v' at *
    cases this with
    | node hv =>
      simp only [OutRel]
      simp only [Cond.okBy, List.all_eq_true] at hc
      rw [Bool.eq_iff_iff]
      simp only [List.any_eq_true, List.contains_iff_mem]
      exact ⟨fun ⟨k, h1, h2⟩ => ⟨k, (R.hasKey _ _ k hv (hc k h2)).1 h1, h2⟩,
        fun ⟨k, h1, h2⟩ => ⟨k, (R.hasKey _ _ k hv (hc k h2)).2 h1, h2⟩⟩
    | _ => simp only [OutRel]
  | firstCharIs c =>
    simp only [evalCond]
    rw [ht, ht']
    refine (R.tok _ _ h.ps 0).bind fun a b hab => ?_
    have h1 := hab.first c hc
    have h2 := hab.nil
    cases ha : a.literal <;> cases hb : b.literal <;> simp_all [OutRel]
  | lastCharIs c =>
    simp only [evalCond]
    rw [ht, ht']
    refine (R.tok _ _ h.ps 0).bind fun a b hab => ?_
    have h1 := hab.last c hc
    have h2 := hab.nil
    cases ha : a.literal.getLast? <;> cases hb : b.literal.getLast? <;>
      simp_all [OutRel]
  | adjacent =>
    simp only [evalCond]
    rw [ht, ht']
    have h0 := R.tok _ _ h.ps 0
    have h1 := R.tok _ _ h.ps 1
    have h2 := R.adj _ _ h.ps
    cases ha : getToken R.toks s.ps 0 <;> cases hb : getToken R.toks' s'.ps 0 <;>
      simp_all [OutRel] <;> try exact OutRel.timeout_right _
    cases ha : getToken R.toks s.ps 1 <;> cases hb : getToken R.toks' s'.ps 1 <;>
      simp_all
    exact h2 _ _ _ _ rfl rfl rfl rfl
  | and a b iha ihb =>
    simp only [Cond.okBy, Bool.and_eq_true] at hc
    simp only [evalCond]
    refine (iha hc.1).bind fun x y hxy => ?_
    subst hxy
    cases x
    · rfl
    · exact ihb hc.2
  | or a b iha ihb =>
    simp only [Cond.okBy, Bool.and_eq_true] at hc
    simp only [evalCond]
    refine (iha hc.1).bind fun x y hxy => ?_
    subst hxy
    cases x
    · exact ihb hc.2
    · rfl
  | not a ih =>
    simp only [Cond.okBy] at hc
    simp only [evalCond]
    refine (ih hc).bind fun x y hxy => ?_
    subst hxy
    rfl

omit hU hU' ht ht' in
theorem evalAtom_rel {s s' : St} (h : R.St2 s s') (a : Atom) :
    OutRel R.RE R.V (evalAtom s.env a) (evalAtom s'.env a) := by
  cases a with
  | var x => exact h.env x
  | bool b => exact .bool b
  | nat n => exact .nat n
  | notVar x =>
    have := h.env x
    simp only [evalAtom]
    generalize s.env x = v at *
    generalize s'.env x = v' at *
    cases this with
    | bool b => exact .bool _
    | _ => simp only [OutRel]
  | kws ks => exact .kws ks
  | strEq x k =>
    have := h.env x
    simp only [evalAtom]
    generalize s.env x = v at *
    generalize s'.env x = v' at *
    cases this with
    | str b => exact .bool _
    | _ => simp only [OutRel]

omit hU hU' ht ht' in
theorem evalAtoms_rel {s s' : St} (h : R.St2 s s') (as : List Atom) :
    OutRel R.RE (List.Forall₂ R.V) (evalAtoms s.env as) (evalAtoms s'.env as) := by
  induction as with
  | nil => exact .nil
  | cons a as ih =>
    simp only [evalAtoms]
    refine (evalAtom_rel h a).bind fun v v' hv => ?_
    refine ih.bind fun vs vs' hvs => ?_
    exact .cons hv hvs

variable (hcall : R.CallRel C.call C'.call)
include hcall

omit hU hU' ht ht' hcall in
theorem forall₂_getLast {α β : Type} {P : α → β → Prop} {l : List α} {l' : List β}
    (h : List.Forall₂ P l l') :
    (l = [] ∧ l' = []) ∨ ∃ i i' a a', l = i ++ [a] ∧ l' = i' ++ [a'] ∧ List.Forall₂ P i i' ∧ P a a' := by
  induction h with
  | nil => exact .inl ⟨rfl, rfl⟩
  | @cons a b l l' hab hl ih =>
    right
    rcases ih with ⟨rfl, rfl⟩ | ⟨i, i', x, x', rfl, rfl, h1, h2⟩
    · exact ⟨[], [], a, b, rfl, rfl, .nil, hab⟩
    · exact ⟨a :: i, b :: i', x, x', rfl, rfl, .cons hab h1, h2⟩

theorem evalExp_rel {s s' : St} (h : R.St2 s s') (e : Exp) (he : e.okBy R.S = true) :
    OutRel R.RE (fun a b => R.V a.1 b.1 ∧ R.St2 a.2 b.2) (evalExp C s e) (evalExp C' s' e) := by
  cases e with
  | var x => exact ⟨h.env x, h⟩
  | construct nt =>
    simp only [evalExp]
    rw [hU, hU', ht, ht']
    exact (R.construct _ _ h.ps nt).bind fun a b hab => ⟨.node hab, h⟩
  | empty nt => exact ⟨.node (R.empty nt), h⟩
  | call f args =>
    simp only [evalExp]
    refine (evalAtoms_rel h args).bind fun vs vs' hvs => ?_
    refine (hcall f _ _ _ _ hvs h.ps).bind fun a b hab => ?_
    exact ⟨hab.1, hab.2, h.env⟩
  | nilVec => exact ⟨.vec .nil, h⟩
  | pop x =>
    have hx := h.env x
    simp only [evalExp]
    generalize hv : s.env x = v at *
    generalize hv' : s'.env x = v' at *
    cases hx with
    | vec hl =>
      rcases forall₂_getLast hl with ⟨rfl, rfl⟩ | ⟨i, i', a, a', rfl, rfl, h1, h2⟩
      · rfl
      · simp only [List.getLast?_append, List.getLast?_singleton, Option.some_or,
          List.dropLast_concat]
        exact ⟨.node h2, h.set x (.vec h1)⟩
    | _ => simp only [OutRel]
  | prec o =>
    simp only [evalExp]
    rw [evalOff_rel h o, hU, hU', ht, ht']
    cases hv : evalOff s'.env o with
    | ok n =>
      simp only [Out.bind_ok]
      refine (prec_rel h.ps n).bind fun a b hab => ?_
      subst hab
      exact ⟨.nat _, h⟩
    | err e => exact absurd hv (evalOff_ne_err _ _ _)
    | panic p => rfl
    | timeout => trivial
  | natLit n => exact ⟨.nat n, h⟩
  | boolLit b => exact ⟨.bool b, h⟩
  | kws ks => exact ⟨.kws ks, h⟩
  | upperLit o =>
    simp only [evalExp]
    refine (offTok_rel ht ht' h o).bind fun a b hab => ?_
    rw [hU, hU', hab.upper]
    exact ⟨.str _, h⟩
  | cond c =>
    simp only [evalExp]
    refine (evalCond_rel hU hU' ht ht' h c he).bind fun a b hab => ?_
    subst hab
    exact ⟨.bool _, h⟩

omit hU hU' ht ht' hcall in
theorem iterate_rel {f g : St → Out (Flow × St)}
    (hf : ∀ s s', R.St2 s s' → OutRel R.RE R.FS (f s) (g s')) :
    ∀ (n m : Nat) (s s' : St), R.St2 s s' → OutRel R.RE R.FS (iterate f n s) (iterate g m s') := by
  intro n
  induction n with
  | zero => intro m s s' _; exact OutRel.timeout_left _
  | succ n ih =>
    intro m s s' h
    cases m with
    | zero => exact OutRel.timeout_right _
    | succ m =>
      have h1 := hf s s' h
      simp only [iterate]
      rcases hx : f s with ⟨fl, s1⟩ | e | p | _ <;> rcases hy : g s' with ⟨fl', s1'⟩ | e' | p' | _ <;>
        rw [hx, hy] at h1 <;>
        first
          | exact OutRel.timeout_left _
          | exact OutRel.timeout_right _
          | exact False.elim h1
          | skip
      · obtain ⟨h2, h3⟩ := h1
        cases h2 with
        | norm => exact ih m _ _ h3
        | brk => exact ⟨.norm, h3⟩
        | ret hv => exact ⟨.ret hv, h3⟩
      · exact h1
      · exact h1

omit hU hU' ht ht' hcall in
theorem scanLoop_rel {f g : St → Out (Flow × St)} {x : Var} {d d' : St → Out (Flow × St)}
    (hf : ∀ s s', R.St2 s s' → OutRel R.RE R.FS (f s) (g s'))
    (hd : ∀ s s', R.St2 s s' → OutRel R.RE R.FS (d s) (d' s')) :
    ∀ (n i : Nat) (s s' : St), R.St2 s s' →
      OutRel R.RE R.FS (scanLoop f x d n i s) (scanLoop g x d' n i s') := by
  intro n
  induction n with
  | zero => intro i s s' h; exact hd _ _ h
  | succ n ih =>
    intro i s s' h
    have h1 := hf _ _ (h.set x (.nat i))
    simp only [scanLoop]
    rcases hx : f { s with env := s.env.set x (.nat i) } with ⟨fl, s1⟩ | e | p | _ <;>
      rcases hy : g { s' with env := s'.env.set x (.nat i) } with ⟨fl', s1'⟩ | e' | p' | _ <;>
      rw [hx, hy] at h1 <;>
      first
        | exact OutRel.timeout_left _
        | exact OutRel.timeout_right _
        | exact False.elim h1
        | skip
    · obtain ⟨h2, h3⟩ := h1
      cases h2 with
      | norm => exact ih _ _ _ h3
      | brk => exact ⟨.norm, h3⟩
      | ret hv => exact ⟨.ret hv, h3⟩
    · exact h1
    · exact h1

omit hU hU' ht ht' hcall in
theorem scanLoop_rel_timeout {f g : St → Out (Flow × St)} {x : Var}
    (hf : ∀ s s', R.St2 s s' → OutRel R.RE R.FS (f s) (g s')) :
    ∀ (n m i : Nat) (s s' : St), R.St2 s s' →
      OutRel R.RE R.FS (scanLoop f x (fun _ => .timeout) n i s)
        (scanLoop g x (fun _ => .timeout) m i s') := by
  intro n
  induction n with
  | zero => intro m i s s' h; exact OutRel.timeout_left _
  | succ n ih =>
    intro m i s s' h
    cases m with
    | zero => exact OutRel.timeout_right _
    | succ m =>
    have h1 := hf _ _ (h.set x (.nat i))
    simp only [scanLoop]
    rcases hx : f { s with env := s.env.set x (.nat i) } with ⟨fl, s1⟩ | e | p | _ <;>
      rcases hy : g { s' with env := s'.env.set x (.nat i) } with ⟨fl', s1'⟩ | e' | p' | _ <;>
      rw [hx, hy] at h1 <;>
      first
        | exact OutRel.timeout_left _
        | exact OutRel.timeout_right _
        | exact False.elim h1
        | skip
    · obtain ⟨h2, h3⟩ := h1
      cases h2 with
      | norm => exact ih _ _ _ _ h3
      | brk => exact ⟨.norm, h3⟩
      | ret hv => exact ⟨.ret hv, h3⟩
    · exact h1
    · exact h1

omit hU hU' ht ht' hcall in
theorem drainLoop_rel {f g : St → Out (Flow × St)} {x : Var}
    (hf : ∀ s s', R.St2 s s' → OutRel R.RE R.FS (f s) (g s')) :
    ∀ (ns ns' : List Node), List.Forall₂ R.RN ns ns' → ∀ (s s' : St), R.St2 s s' →
      OutRel R.RE R.FS (drainLoop f x ns s) (drainLoop g x ns' s') := by
  intro ns ns' hns
  induction hns with
  | nil => intro s s' h; exact ⟨.norm, h⟩
  | @cons n n' ns ns' hn _ ih =>
    intro s s' h
    have h1 := hf _ _ (h.set x (.node hn))
    simp only [drainLoop]
    rcases hx : f { s with env := s.env.set x (.node n) } with ⟨fl, s1⟩ | e | p | _ <;>
      rcases hy : g { s' with env := s'.env.set x (.node n') } with ⟨fl', s1'⟩ | e' | p' | _ <;>
      rw [hx, hy] at h1 <;>
      first
        | exact OutRel.timeout_left _
        | exact OutRel.timeout_right _
        | exact False.elim h1
        | skip
    · obtain ⟨h2, h3⟩ := h1
      cases h2 with
      | norm => exact ih _ _ h3
      | brk => exact ⟨.norm, h3⟩
      | ret hv => exact ⟨.ret hv, h3⟩
    · exact h1
    · exact h1

theorem exec_rel (c : Cmd) : c.okBy R.S = true → ∀ s s', R.St2 s s' →
    OutRel R.RE R.FS (exec C c s) (exec C' c s') := by
  induction c with
  | skip => exact fun _ s s' h => ⟨.norm, h⟩
  | seq a b iha ihb =>
    intro hc s s' h
    simp only [Cmd.okBy, Bool.and_eq_true] at hc
    have h1 := iha hc.1 s s' h
    simp only [exec]
    rcases hx : exec C a s with ⟨fl, s1⟩ | e | p | _ <;>
      rcases hy : exec C' a s' with ⟨fl', s1'⟩ | e' | p' | _ <;>
      rw [hx, hy] at h1 <;>
      first
        | exact OutRel.timeout_left _
        | exact OutRel.timeout_right _
        | exact False.elim h1
        | skip
    · obtain ⟨h2, h3⟩ := h1
      cases h2 with
      | norm => exact ihb hc.2 _ _ h3
      | brk => exact ⟨.brk, h3⟩
      | ret hv => exact ⟨.ret hv, h3⟩
    · exact h1
    · exact h1
  | next =>
    intro _ s s' h
    simp only [exec]
    rw [ht, ht']
    exact (R.next _ _ h.ps).bind fun a b hab => ⟨.norm, hab, h.env⟩
  | set x e =>
    intro hc s s' h
    simp only [exec]
    exact (evalExp_rel hU hU' ht ht' hcall h e hc).bind fun a b hab => ⟨.norm, hab.2.set x hab.1⟩
  | push x k e =>
    intro hc s s' h
    simp only [Cmd.okBy, Bool.and_eq_true] at hc
    simp only [exec]
    refine (evalExp_rel hU hU' ht ht' hcall h e hc.2).bind fun ⟨v, s1⟩ ⟨v', s1'⟩ hab => ?_
    obtain ⟨h1, h2⟩ := hab
    have hx := h2.env x
    simp only at h1 hx ⊢
    generalize s1.env x = w at *
    generalize s1'.env x = w' at *
    cases hx <;> cases h1 <;> simp only [OutRel]
    rename_i hn _ _ hc'
    exact ⟨.norm, h2.set x (.node (R.pushNode _ _ _ _ k hc.1 hn hc'))⟩
  | pushVec x k e =>
    intro hc s s' h
    simp only [Cmd.okBy, Bool.and_eq_true] at hc
    simp only [exec]
    refine (evalExp_rel hU hU' ht ht' hcall h e hc.2).bind fun ⟨v, s1⟩ ⟨v', s1'⟩ hab => ?_
    obtain ⟨h1, h2⟩ := hab
    have hx := h2.env x
    simp only at h1 hx ⊢
    generalize s1.env x = w at *
    generalize s1'.env x = w' at *
    cases hx <;> cases h1 <;> simp only [OutRel]
    rename_i hn _ _ hc'
    exact ⟨.norm, h2.set x (.node (R.pushVec _ _ _ _ k hc.1 hn hc'))⟩
  | append x e =>
    intro hc s s' h
    simp only [exec]
    refine (evalExp_rel hU hU' ht ht' hcall h e hc).bind fun ⟨v, s1⟩ ⟨v', s1'⟩ hab => ?_
    obtain ⟨h1, h2⟩ := hab
    have hx := h2.env x
    simp only at h1 hx ⊢
    generalize s1.env x = w at *
    generalize s1'.env x = w' at *
    cases hx <;> cases h1 <;> simp only [OutRel]
    rename_i hn _ _ hc'
    exact ⟨.norm, h2.set x (.vec (List.rel_append hn (.cons hc' .nil)))⟩
  | setType x nt =>
    intro _ s s' h
    have hx := h.env x
    simp only [exec]
    generalize s.env x = w at *
    generalize s'.env x = w' at *
    cases hx <;> simp only [OutRel]
    rename_i hn
    exact ⟨.norm, h.set x (.node (R.setType _ _ nt hn))⟩
  | ite c a b iha ihb =>
    intro hc s s' h
    simp only [Cmd.okBy, Bool.and_eq_true] at hc
    have h1 := evalCond_rel hU hU' ht ht' h c hc.1.1
    simp only [exec]
    rcases hx : evalCond C s c with _ | e | p | _ <;>
      rcases hy : evalCond C' s' c with _ | e' | p' | _ <;>
      rw [hx, hy] at h1 <;>
      first
        | exact OutRel.timeout_left _
        | exact OutRel.timeout_right _
        | exact False.elim h1
        | skip
    · cases h1
      rename_i v
      cases v
      · exact ihb hc.2 _ _ h
      · exact iha hc.1.2 _ _ h
    · exact h1
    · exact h1
  | loop a ih =>
    intro hc s s' h
    exact iterate_rel (ih hc) _ _ _ _ h
  | brk => exact fun _ s s' h => ⟨.brk, h⟩
  | ret e =>
    intro hc s s' h
    simp only [exec]
    exact (evalExp_rel hU hU' ht ht' hcall h e hc).bind fun a b hab => ⟨.ret hab.1, hab.2⟩
  | fail o line =>
    intro _ s s' h
    simp only [exec]
    exact (offTok_rel ht ht' h o).bind fun a b hab => hab.err _
  | scan x lo hi body ih =>
    intro hc s s' h
    cases hi with
    | none => exact scanLoop_rel_timeout (ih hc) _ _ _ _ _ h
    | some hi =>
      simp only [exec]
      have h1 := evalAtom_rel h hi
      rcases hx : evalAtom s.env hi with v | e | p | _ <;>
        rcases hy : evalAtom s'.env hi with v' | e' | p' | _ <;>
        rw [hx, hy] at h1 <;>
        first
          | exact OutRel.timeout_left _
          | exact OutRel.timeout_right _
          | exact False.elim h1
          | skip
      · simp only [OutRel] at h1
        cases h1 <;> simp only [OutRel]
        refine scanLoop_rel (ih hc) (fun s s' h => ?_) _ _ _ _ h
        exact ⟨.norm, h⟩
      · exact h1
      · exact h1
  | drain v x body ih =>
    intro hc s s' h
    have hx := h.env v
    simp only [exec]
    generalize s.env v = w at *
    generalize s'.env v = w' at *
    cases hx <;> simp only [OutRel]
    rename_i hn
    exact drainLoop_rel (ih hc) _ _ (List.rel_reverse hn) _ _ (h.set v (.vec .nil))
  | tryElse x f args hd ih =>
    intro hc s s' h
    simp only [exec]
    refine (evalAtoms_rel h args).bind fun vs vs' hvs => ?_
    have h1 := hcall f _ _ _ _ hvs h.ps
    rcases hx : C.call f vs s.ps with ⟨v, ps⟩ | e | p | _ <;>
      rcases hy : C'.call f vs' s'.ps with ⟨v', ps'⟩ | e' | p' | _ <;>
      rw [hx, hy] at h1 <;>
      first
        | exact OutRel.timeout_left _
        | exact OutRel.timeout_right _
        | exact False.elim h1
        | skip
    · refine ⟨.norm, ?_⟩
      have h2 := h.set x h1.1
      exact ⟨h1.2, h2.env⟩
    · exact ih hc _ _ h
    · exact h1

omit hU hU' ht ht' hcall in
theorem bindParams_rel (xs : List Var) (vs vs' : List Val) (h : List.Forall₂ R.V vs vs') (y : Var) :
    R.V (bindParams xs vs y) (bindParams xs vs' y) := by
  induction xs generalizing vs vs' with
  | nil => simp only [bindParams]; exact .unit
  | cons x xs ih =>
    cases h with
    | nil => exact .unit
    | cons hv hvs =>
      simp only [bindParams, Env.set]
      split
      · exact hv
      · exact ih _ _ hvs

theorem runBody_rel (d : FunDef) (hd : d.body.okBy R.S = true) (vs vs' : List Val) (s s' : PS)
    (hvs : List.Forall₂ R.V vs vs') (h : R.RS s s') :
    OutRel R.RE (fun a b => R.V a.1 b.1 ∧ R.RS a.2 b.2) (runBody C d vs s) (runBody C' d vs' s') := by
  have h1 := exec_rel hU hU' ht ht' hcall d.body hd ⟨s, bindParams d.params vs⟩
    ⟨s', bindParams d.params vs'⟩ ⟨h, bindParams_rel _ _ _ hvs⟩
  simp only [runBody]
  rcases hx : exec C d.body ⟨s, bindParams d.params vs⟩ with ⟨v, ps⟩ | e | p | _ <;>
    rcases hy : exec C' d.body ⟨s', bindParams d.params vs'⟩ with ⟨v', ps'⟩ | e' | p' | _ <;>
    rw [hx, hy] at h1 <;>
    first
      | exact OutRel.timeout_left _
      | exact OutRel.timeout_right _
      | exact False.elim h1
      | skip
  · obtain ⟨h2, h3⟩ := h1
    cases h2 with
    | ret hv => exact ⟨hv, h3.ps⟩
    | _ => rfl
  · exact h1
  · exact h1

end

theorem callN_rel (R : Rel) (defs : Fn → FunDef) (hd : ∀ f, (defs f).body.okBy R.S = true)
    (fuel fuel' n m : Nat) :
    R.CallRel (callN R.U defs R.toks fuel n) (callN R.U defs R.toks' fuel' m) := by
  induction n generalizing m with
  | zero => exact fun f vs vs' s s' _ _ => OutRel.timeout_left _
  | succ n ih =>
    cases m with
    | zero => exact fun f vs vs' s s' _ _ => OutRel.timeout_right _
    | succ m => exact fun f vs vs' s s' hv h => runBody_rel rfl rfl rfl rfl (ih m) _ (hd f) _ _ _ _ hv h

theorem parseLoop_rel (R : Rel) (hd : ∀ f, (Program.defs f).body.okBy R.S = true)
    (fuel fuel' d d' n m : Nat) (s s' : PS) (ns ns' : List Node) (h : R.RS s s')
    (hn : List.Forall₂ R.RN ns ns') :
    OutRel R.RE (List.Forall₂ R.RN) (parseLoop R.U R.toks fuel d n s ns)
      (parseLoop R.U R.toks' fuel' d' m s' ns') := by
  induction n generalizing m s s' ns ns' with
  | zero => exact OutRel.timeout_left _
  | succ n ih =>
    cases m with
    | zero => exact OutRel.timeout_right _
    | succ m =>
      simp only [parseLoop]
      rw [R.eof s s' h 0]
      split
      · refine (R.construct s s' h .EOF).bind fun a b hab => ?_
        exact List.rel_append hn (.cons hab .nil)
      · have h1 := callN_rel R Program.defs hd fuel fuel' d d' .parse_statement [.bool true]
          [.bool true] s s' (.cons (.bool true) .nil) h
        simp only [call]
        rcases hx : callN R.U Program.defs R.toks fuel d .parse_statement [.bool true] s
            with ⟨v, ps⟩ | e | p | _ <;>
          rcases hy : callN R.U Program.defs R.toks' fuel' d' .parse_statement [.bool true] s'
            with ⟨v', ps'⟩ | e' | p' | _ <;>
          rw [hx, hy] at h1 <;>
          first
            | exact OutRel.timeout_left _
            | exact OutRel.timeout_right _
            | exact False.elim h1
            | skip
        · obtain ⟨h2, h3⟩ := h1
          simp only at h2 h3
          cases h2
          case node hnode =>
            have h4 := R.next _ _ h3
            dsimp only
            rcases hx : nextToken R.toks ps with ps1 | e | p | _ <;>
              rcases hy : nextToken R.toks' ps' with ps1' | e' | p' | _ <;>
              rw [hx, hy] at h4 <;>
              first
                | exact OutRel.timeout_left _
                | exact OutRel.timeout_right _
                | exact False.elim h4
                | skip
            · exact ih m _ _ _ _ h4 (List.rel_append hn (.cons hnode .nil))
            · exact h4
            · exact h4
          all_goals rfl
        · exact h1
        · exact h1

theorem parseTokensWith_rel (R : Rel) (hd : ∀ f, (Program.defs f).body.okBy R.S = true)
    (hnew : OutRel R.RE R.RS (Core.new R.toks) (Core.new R.toks')) (fuel fuel' d d' : Nat) :
    OutRel R.RE (List.Forall₂ R.RN) (parseTokensWith R.U fuel d R.toks)
      (parseTokensWith R.U fuel' d' R.toks') :=
  hnew.bind fun s s' h => parseLoop_rel R hd fuel fuel' d d' fuel fuel' s s' [] [] h .nil

end Rel
end Verif
