import Verif.Analysis.Slow
import Verif.Model.Work
import Verif.Proofs.Cut
/-! The evaluator of Analysis/Slow.lean is right about the parser. -/
namespace Verif.Slow
open Core Interp
open GI hiding exec

/-- A value of which `a` is known. -/
def RV : AVal → Val → Prop
  | .unit, _ => True
  | .node ty, v => ∃ n, v = .node n ∧ n.ty = ty
  | .vec tys, v => ∃ ns, v = .vec ns ∧ ns.map (·.ty) = tys
  | .bool b, v => v = .bool b
  | .nat n, v => v = .nat n
  | .str s, v => v = .str s
  | .kws ks, v => v = .kws ks

/-- The same for lists. -/
def RVs : List AVal → List Val → Prop
  | [], [] => True
  | a :: as, v :: vs => RV a v ∧ RVs as vs
  | _, _ => False

/-- The place of a known token in the whole text; `g` is how much longer the gap is than two tokens. -/
def at_ (w : Window) (p g i : Nat) : Nat := if i ≤ w.gap then p + i else p + g + i

/-- The window is a part of the tokens `T`. -/
structure View (w : Window) (U : Unicode) (T : List Token) (p g : Nat) : Prop where
  nc : ∀ t ∈ T, t.isComment = false
  tok : ∀ i l, w.lits[i]? = some l → i ≠ w.gap + 1 → ∃ t, T[at_ w p g i]? = some t ∧ t.literal = l
  up : ∀ l ∈ w.lits, U.upper l = U0.upper l
  more : at_ w p g w.lits.length < T.length

/-- The state of the parser at a position of the window. -/
def ps_ (w : Window) (p g i : Nat) : PS := ⟨at_ w p g i, [], []⟩

/-- Outcomes that agree; `m` is the work done, `W` the work for the gap. -/
def Agrees {α β : Type} (R : α → β → Prop) (W : Nat) : Ans α → Out β → Nat → Prop
  | .ok k a, o, m => (∃ b, o = .ok b ∧ R a b) ∧ k * W ≤ m
  | .err k, o, m => (∃ e, o = .err e) ∧ k * W ≤ m
  | .stuck, _, _ => True

theorem Agrees.bind {α β γ δ : Type} {R : α → β → Prop} {S : γ → δ → Prop} {W : Nat} {x : Ans α} {o : Out β} {m m' : Nat}
    {f : α → Ans γ} {h : β → Out δ} (h1 : Agrees R W x o m)
    (h2 : ∀ a b, R a b → o = .ok b → Agrees S W (f a) (h b) (m' - m)) (hm : m ≤ m') :
    Agrees S W (x.bind f) (o >>= h) m' := by
  cases x with
  | stuck => trivial
  | err k =>
    obtain ⟨⟨e, rfl⟩, hk⟩ := h1
    exact ⟨⟨e, rfl⟩, by omega⟩
  | ok k a =>
    obtain ⟨⟨b, rfl, hr⟩, hk⟩ := h1
    have := h2 a b hr rfl
    simp only [Ans.bind]
    cases hf : f a with
    | stuck => trivial
    | err j =>
      rw [hf] at this
      exact ⟨this.1, by rw [Nat.add_mul]; have := this.2; omega⟩
    | ok j c =>
      rw [hf] at this
      exact ⟨this.1, by rw [Nat.add_mul]; have := this.2; omega⟩

/-- A token of the text that looks like the one of the window. -/
def Like (U : Unicode) (t t' : Token) : Prop := t'.literal = t.literal ∧ U.upper t.literal = U0.upper t.literal

theorem Like.inKws {U : Unicode} {t t' : Token} (h : Like U t t') (ks : List Kw) : t'.inKws U ks = t.inKws U0 ks := by
  unfold Token.inKws Token.upper
  rw [h.1, h.2]

theorem Like.upper {U : Unicode} {t t' : Token} (h : Like U t t') : t'.upper U = t.upper U0 := by
  unfold Token.upper
  rw [h.1, h.2]

theorem Like.isIdentifier {U : Unicode} {t t' : Token} (h : Like U t t') : t'.isIdentifier U = t.isIdentifier U0 := by
  unfold Token.isIdentifier Token.isReservedKeyword Token.quotedBy
  rw [h.inKws, h.1]

theorem Like.isString {U : Unicode} {t t' : Token} (h : Like U t t') : t'.isString = t.isString := by
  unfold Token.isString Token.quotedBy
  rw [h.1]

theorem Like.isNumeric {U : Unicode} {t t' : Token} (h : Like U t t') : t'.isNumeric = t.isNumeric := by
  unfold Token.isNumeric
  rw [h.1]

theorem Like.isParameter {U : Unicode} {t t' : Token} (h : Like U t t') : t'.isParameter = t.isParameter := by
  unfold Token.isParameter
  rw [h.1]

theorem Like.isTemplate {U : Unicode} {t t' : Token} (h : Like U t t') : t'.isTemplate = t.isTemplate := by
  unfold Token.isTemplate
  rw [h.1]

theorem Like.isBoolean {U : Unicode} {t t' : Token} (h : Like U t t') : t'.isBoolean U = t.isBoolean U0 := by
  unfold Token.isBoolean
  rw [h.upper]

theorem Like.prec {U : Unicode} {t t' : Token} (h : Like U t t') : precTable U t' = precTable U0 t := by
  unfold precTable
  simp only [h.inKws]

section
variable {w : Window} {U : Unicode} {T : List Token} {p g : Nat} (hV : View w U T p g)
include hV

theorem offset {q k : Nat} (h : q + k < T.length) : getOffsetIndex T ⟨q, [], []⟩ k = .ok (q + k) := by
  unfold getOffsetIndex
  by_cases h0 : k = 0
  · subst h0; rfl
  · rw [if_neg h0]
    rw [scanFrom_nc k (T.drop (q + 1)) 0 (q + 1) (fun j u _ hu =>
      hV.nc u (List.mem_of_getElem? (by rw [List.getElem?_drop] at hu; exact hu))) (by omega)
      (by rw [List.length_drop]; omega)]
    simp only [Out.ok.injEq]
    omega

theorem get_sound {i k : Nat} {t : Token} (h : w.get i k = some t) :
    ∃ t', getToken T (ps_ w p g i) k = .ok t' ∧ Like U t t' ∧ at_ w p g i + k + 1 < T.length ∧
      at_ w p g (i + k) = at_ w p g i + k := by
  unfold Window.get at h
  split at h
  · cases h
  · rename_i hn
    cases hl : w.lits[i + k]? with
    | none => rw [hl] at h; cases h
    | some l =>
      rw [hl] at h
      cases h
      have hlt := (List.getElem?_eq_some_iff.1 hl).1
      have heq : at_ w p g (i + k) = at_ w p g i + k := by
        unfold at_
        split <;> split <;> omega
      have hmore : at_ w p g i + k + 1 < T.length := by
        have := hV.more
        rw [← heq]
        unfold at_ at this ⊢
        split <;> split at this <;> omega
      obtain ⟨t, h1, h2⟩ := hV.tok _ _ hl (by omega)
      refine ⟨t, ?_, ⟨h2, hV.up l (List.mem_of_getElem? hl)⟩, hmore, heq⟩
      unfold getToken ps_
      rw [offset hV (by omega)]
      simp only [tokAt, ← heq, h1]

theorem next_sound {i j : Nat} (h : anext w i = some j) : nextToken T (ps_ w p g i) = .ok (ps_ w p g j) := by
  unfold anext at h
  cases hg : w.get i 1 with
  | none => rw [hg] at h; cases h
  | some t =>
    rw [hg] at h
    cases h
    obtain ⟨t', h1, _, h3, h4⟩ := get_sound hV hg
    have hx : ∀ k, at_ w p g i + k < T.length → ∃ u, T[at_ w p g i + k]? = some u ∧ u.isComment = false := by
      intro k hk
      exact ⟨T[at_ w p g i + k], List.getElem?_eq_getElem hk, hV.nc _ (List.getElem_mem _)⟩
    obtain ⟨u, u1, u2⟩ := hx 1 (by omega)
    obtain ⟨v, v1, v2⟩ := hx 2 (by omega)
    unfold nextToken ps_
    rw [offset hV (by omega)]
    simp only [List.getLast?_nil, range, Nat.sub_self, List.range'_zero]
    rw [offset hV (by omega)]
    simp only [tokAt, u1, Cut.trailing_self, h4]

theorem eof_sound {i k : Nat} {t : Token} (h : w.get i k = some t) : isEof T (ps_ w p g i) k = false := by
  obtain ⟨t', h1, _, h3, h4⟩ := get_sound hV h
  unfold isEof ps_
  rw [offset hV (by omega)]
  simp only [decide_eq_false_iff_not]
  omega

theorem prec_sound {i k n : Nat} (h : aprec w i k = some n) : getPrecedence U T (ps_ w p g i) k = .ok n := by
  unfold aprec at h
  cases hg : w.get i k with
  | none => rw [hg] at h; cases h
  | some t =>
    rw [hg] at h
    obtain ⟨t', h1, h2, _⟩ := get_sound hV hg
    unfold getPrecedence
    rw [h1]
    simp only [h2.inKws, h2.prec]
    dsimp only [Option.bind] at h
    split at h
    · cases h
    · cases h
      rename_i hn
      rw [if_neg hn]

theorem construct_sound {i : Nat} {nt ty : NodeType} (h : aconstruct w i nt = some ty) :
    ∃ n, construct U T (ps_ w p g i) nt = .ok n ∧ n.ty = ty := by
  unfold aconstruct at h
  cases hg : w.get i 0 with
  | none => rw [hg] at h; cases h
  | some t =>
    rw [hg] at h
    obtain ⟨t', h1, h2, _⟩ := get_sound hV hg
    unfold construct
    rw [h1]
    simp only
    dsimp only [Option.bind] at h
    have ha : ∀ n, attachComments T (ps_ w p g i) n = .ok n := fun n => Cut.attach_nil _ _ _
    split
    · rename_i hn
      rw [if_pos hn] at h
      cases h
      exact ⟨_, ha _, rfl⟩
    · rename_i hn
      rw [if_neg hn] at h
      split
      · rename_i hu
        rw [if_pos hu] at h
        have : classify U T (ps_ w p g i) t' = .ok ty := by
          unfold aclassify at h
          unfold classify
          simp only [h2.isIdentifier, h2.isNumeric, h2.isString, h2.isBoolean, h2.isParameter, h2.isTemplate, h2.upper]
          repeat' split at h
          all_goals first
            | (cases h; simp_all)
            | skip
          cases hg1 : w.get i 1 with
          | none => rw [hg1] at h; cases h
          | some u =>
            rw [hg1] at h
            obtain ⟨u', g1, g2, _⟩ := get_sound hV hg1
            simp only [*]
            simp only [Option.map, Option.some.injEq] at h
            rw [← h, g2.1]
            simp
            split <;> rfl
        rw [this]
        exact ⟨_, ha _, rfl⟩
      · rename_i hu
        rw [if_neg hu] at h
        cases h
        exact ⟨_, ha _, rfl⟩

end

/-- What is known of the variables is true. -/
def REnv (a : AEnv) (e : Env) : Prop := ∀ x, RV (a x) (e x)

theorem REnv.set {a : AEnv} {e : Env} (h : REnv a e) (x : Var) {av : AVal} {v : Val} (hv : RV av v) :
    REnv (a.set x av) (e.set x v) := by
  intro y
  unfold AEnv.set Env.set
  split
  · exact hv
  · exact h y

theorem off_sound {a : AEnv} {e : Env} (h : REnv a e) {o : Off} {n : Nat} (hn : aoff a o = some n) :
    evalOff e o = .ok n := by
  cases o with
  | lit k => cases hn; rfl
  | var x k =>
    simp only [aoff] at hn
    have := h x
    cases hx : a x <;> rw [hx] at hn this <;> simp only [reduceCtorEq, Option.some.injEq] at hn
    subst hn
    simp only [evalOff, show e x = _ from this]

theorem atom_sound {a : AEnv} {e : Env} (h : REnv a e) {o : Atom} {av : AVal} (hn : aatom a o = some av) :
    ∃ v, evalAtom e o = .ok v ∧ RV av v := by
  cases o with
  | var x => cases hn; exact ⟨_, rfl, h x⟩
  | bool b => cases hn; exact ⟨_, rfl, rfl⟩
  | nat b => cases hn; exact ⟨_, rfl, rfl⟩
  | kws b => cases hn; exact ⟨_, rfl, rfl⟩
  | notVar x =>
    simp only [aatom] at hn
    have := h x
    cases hx : a x <;> rw [hx] at hn this <;> simp only [reduceCtorEq, Option.some.injEq] at hn
    subst hn
    exact ⟨_, by simp only [evalAtom, show e x = _ from this], rfl⟩
  | strEq x k =>
    simp only [aatom] at hn
    have := h x
    cases hx : a x <;> rw [hx] at hn this <;> simp only [reduceCtorEq, Option.some.injEq] at hn
    subst hn
    exact ⟨_, by simp only [evalAtom, show e x = _ from this], rfl⟩

theorem atoms_sound {a : AEnv} {e : Env} (h : REnv a e) : ∀ {os : List Atom} {avs : List AVal}, aatoms a os = some avs →
    ∃ vs, evalAtoms e os = .ok vs ∧ RVs avs vs
  | [], _, hn => by cases hn; exact ⟨[], rfl, trivial⟩
  | o :: os, avs, hn => by
    simp only [aatoms] at hn
    cases h1 : aatom a o with
    | none => rw [h1] at hn; cases hn
    | some av =>
      rw [h1] at hn
      cases h2 : aatoms a os with
      | none => rw [h2] at hn; cases hn
      | some avs' =>
        rw [h2] at hn
        cases hn
        obtain ⟨v, k1, k2⟩ := atom_sound h h1
        obtain ⟨vs, k3, k4⟩ := atoms_sound h h2
        exact ⟨v :: vs, by simp only [evalAtoms, k1, k3]; rfl, k2, k4⟩

/-- What is known of a state is true. -/
structure RS (w : Window) (p g : Nat) (a : ASt) (s : St) : Prop where
  ps : s.ps = ps_ w p g a.pos
  env : REnv a.env s.env

section
variable {w : Window} {p g : Nat} {C : Ctx} (hV : View w C.U C.toks p g)
include hV

theorem tok_sound {a : ASt} {s : St} (h : RS w p g a s) {o : Off} {t : Token} (ht : atok w a o = some t) :
    ∃ t', offTok C s o = .ok t' ∧ Like C.U t t' := by
  unfold atok at ht
  cases h1 : aoff a.env o with
  | none => rw [h1] at ht; cases ht
  | some n =>
    rw [h1] at ht
    obtain ⟨t', g1, g2, _⟩ := get_sound hV ht
    refine ⟨t', ?_, g2⟩
    unfold offTok
    rw [off_sound h.env h1, h.ps]
    exact g1

theorem cond_sound {a : ASt} {s : St} (h : RS w p g a s) (c : Cond) : ∀ {b : Bool}, acond w a c = some b →
    evalCond C s c = .ok b := by
  have hget : ∀ {o : Off} {f : Token → Bool} {f' : Token → Bool} {b : Bool},
      (∀ t t', Like C.U t t' → f' t' = f t) → (atok w a o).map f = some b →
      (offTok C s o >>= fun t => Out.ok (f' t)) = .ok b := by
    intro o f f' b hf hb
    cases ht : atok w a o with
    | none => rw [ht] at hb; cases hb
    | some t =>
      rw [ht] at hb
      obtain ⟨t', k1, k2⟩ := tok_sound hV h ht
      rw [k1]
      cases hb
      exact congrArg _ (hf _ _ k2)
  induction c with
  | up o ks => exact fun hb => hget (fun t t' h => h.inKws ks) hb
  | raw o ks => exact fun hb => hget (f := fun t => ks.any fun k => t.literal == k.lit) (fun t t' h => by rw [h.1]) hb
  | upVar o x =>
    intro b hb
    simp only [acond] at hb
    cases ht : atok w a o with
    | none => rw [ht] at hb; cases hb
    | some t =>
      rw [ht] at hb
      obtain ⟨t', k1, k2⟩ := tok_sound hV h ht
      simp only [evalCond, k1]
      have := h.env x
      dsimp only [Option.bind] at hb
      cases hx : a.env x <;> rw [hx] at hb this <;> simp only [reduceCtorEq, Option.some.injEq] at hb
      rw [show s.env x = _ from this]
      subst hb
      exact congrArg _ (k2.inKws _)
  | isIdent o => exact fun hb => hget (fun t t' h => h.isIdentifier) hb
  | isStr o => exact fun hb => hget (fun t t' h => h.isString) hb
  | isNum o => exact fun hb => hget (fun t t' h => h.isNumeric) hb
  | eof o =>
    intro b hb
    simp only [acond, atok] at hb
    cases ht : aoff a.env o with
    | none => rw [ht] at hb; cases hb
    | some n =>
      rw [ht] at hb
      cases hg : w.get a.pos n with
      | none => simp [hg] at hb
      | some t =>
        simp only [Option.bind, hg, Option.map, Option.some.injEq] at hb
        simp only [evalCond, off_sound h.env ht]
        rw [h.ps]
        show Out.ok (isEof _ _ n) = _
        rw [eof_sound hV hg, hb]
  | hasTok o =>
    intro b hb
    simp only [acond, atok] at hb
    cases ht : aoff a.env o with
    | none => rw [ht] at hb; cases hb
    | some n =>
      rw [ht] at hb
      cases hg : w.get a.pos n with
      | none => simp [hg] at hb
      | some t =>
        simp only [Option.bind, hg, Option.map, Option.some.injEq] at hb
        simp only [evalCond, off_sound h.env ht]
        rw [h.ps]
        obtain ⟨t', g1, _⟩ := get_sound hV hg
        simp only [Out.bind_ok, g1, hb]
  | bvar x =>
    intro b hb
    simp only [acond] at hb
    have := h.env x
    cases hx : a.env x <;> rw [hx] at hb this <;> simp only [reduceCtorEq, Option.some.injEq] at hb
    subst hb
    simp only [evalCond, show s.env x = _ from this]
  | const b => intro b hb; cases hb; rfl
  | precLt x =>
    intro b hb
    simp only [acond] at hb
    cases hp : aprec w a.pos 1 with
    | none => rw [hp] at hb; cases hb
    | some n =>
      rw [hp] at hb
      dsimp only [Option.bind] at hb
      simp only [evalCond]
      rw [h.ps, prec_sound hV hp]
      have := h.env x
      cases hx : a.env x <;> rw [hx] at hb this <;> simp only [reduceCtorEq, Option.some.injEq] at hb
      subst hb
      simp only [Out.bind_ok, show s.env x = _ from this]
  | lenPos x =>
    intro b hb
    simp only [acond] at hb
    have := h.env x
    cases hx : a.env x <;> rw [hx] at hb this <;> simp only [reduceCtorEq, Option.some.injEq] at hb
    obtain ⟨ns, h1, h2⟩ := this
    subst hb h2
    simp only [evalCond, h1, List.length_map]
  | lenOne x =>
    intro b hb
    simp only [acond] at hb
    have := h.env x
    cases hx : a.env x <;> rw [hx] at hb this <;> simp only [reduceCtorEq, Option.some.injEq] at hb
    obtain ⟨ns, h1, h2⟩ := this
    subst hb h2
    simp only [evalCond, h1, List.length_map]
  | strIs x k =>
    intro b hb
    simp only [acond] at hb
    have := h.env x
    cases hx : a.env x <;> rw [hx] at hb this <;> simp only [reduceCtorEq, Option.some.injEq] at hb
    subst hb
    simp only [evalCond, show s.env x = _ from this]
  | typeIs x nt =>
    intro b hb
    simp only [acond] at hb
    have := h.env x
    cases hx : a.env x <;> rw [hx] at hb this <;> simp only [reduceCtorEq, Option.some.injEq] at hb
    obtain ⟨n, h1, h2⟩ := this
    subst hb h2
    simp only [evalCond, h1]
  | leftmostIs x nt =>
    intro b hb
    simp only [acond] at hb
    have := h.env x
    cases hx : a.env x <;> rw [hx] at hb this <;> simp only [reduceCtorEq] at hb
    obtain ⟨n, h1, h2⟩ := this
    split at hb
    · cases hb
    · rename_i hd
      cases hb
      simp only [evalCond, h1]
      rw [← h2] at hd ⊢
      have : n.leftmostType = n.ty := by cases n; exact if_neg hd
      rw [this]
  | hasAnyKey x ks => intro b hb; cases hb
  | firstCharIs c =>
    intro b hb
    simp only [acond] at hb
    cases hg : w.get a.pos 0 with
    | none => rw [hg] at hb; cases hb
    | some t =>
      rw [hg] at hb
      obtain ⟨t', g1, g2, _⟩ := get_sound hV hg
      simp only [evalCond]
      rw [h.ps, g1]
      simp only [Out.bind_ok, g2.1]
      dsimp only [Option.bind] at hb
      cases hh : t.literal.head? with
      | none => rw [hh] at hb; cases hb
      | some d => rw [hh] at hb; cases hb; rfl
  | lastCharIs c =>
    intro b hb
    simp only [acond] at hb
    cases hg : w.get a.pos 0 with
    | none => rw [hg] at hb; cases hb
    | some t =>
      rw [hg] at hb
      obtain ⟨t', g1, g2, _⟩ := get_sound hV hg
      simp only [evalCond]
      rw [h.ps, g1]
      simp only [Out.bind_ok, g2.1]
      dsimp only [Option.bind] at hb
      cases hh : t.literal.getLast? with
      | none => rw [hh] at hb; cases hb
      | some d => rw [hh] at hb; cases hb; rfl
  | adjacent => intro b hb; cases hb
  | and c d ihc ihd =>
    intro b hb
    simp only [acond] at hb
    cases hc : acond w a c with
    | none => rw [hc] at hb; cases hb
    | some x =>
      rw [hc] at hb
      simp only [evalCond, ihc hc]
      cases x
      · cases hb; rfl
      · exact ihd hb
  | or c d ihc ihd =>
    intro b hb
    simp only [acond] at hb
    cases hc : acond w a c with
    | none => rw [hc] at hb; cases hb
    | some x =>
      rw [hc] at hb
      simp only [evalCond, ihc hc]
      cases x
      · exact ihd hb
      · cases hb; rfl
  | not c ih =>
    intro b hb
    simp only [acond] at hb
    cases hc : acond w a c with
    | none => rw [hc] at hb; cases hb
    | some x =>
      rw [hc] at hb
      cases hb
      simp only [evalCond, ih hc]
      rfl

/-- Calls agree; `m` counts the work of a call. -/
def RCall (w : Window) (p g W : Nat) (acall : ACall) (call : Fn → List Val → PS → Out (Val × PS))
    (m : Fn → List Val → PS → Nat) : Prop :=
  ∀ f avs vs i, RVs avs vs → Agrees (fun a b => RV a.1 b.1 ∧ b.2 = ps_ w p g a.2) W (acall f avs i)
    (call f vs (ps_ w p g i)) (m f vs (ps_ w p g i))

omit hV in
theorem Agrees.of {α β : Type} {R : α → β → Prop} {W m : Nat} {x : Option α} {o : Out β}
    (h : ∀ a, x = some a → ∃ b, o = .ok b ∧ R a b) : Agrees R W (.of x) o m := by
  cases x with
  | none => trivial
  | some a => exact ⟨h a rfl, by omega⟩

omit hV in
theorem Agrees.ok {α β : Type} {R : α → β → Prop} {W m : Nat} {a : α} {b : β} (h : R a b) :
    Agrees R W (.ok 0 a) (.ok b) m := ⟨⟨b, rfl, h⟩, by omega⟩

variable {W : Nat} {acall : ACall} {m : Fn → List Val → PS → Nat} (hC : RCall w p g W acall C.call m)
include hC

theorem exp_sound {a : ASt} {s : St} (h : RS w p g a s) (e : Exp) :
    Agrees (fun x y => RV x.1 y.1 ∧ RS w p g x.2 y.2) W (aexp w acall a e) (evalExp C s e) (expWork m s e) := by
  cases e with
  | var x => exact .ok ⟨h.env x, h⟩
  | construct nt =>
    refine .of fun r hr => ?_
    cases hc : aconstruct w a.pos nt with
    | none => rw [hc] at hr; cases hr
    | some ty =>
      rw [hc] at hr
      cases hr
      obtain ⟨n, k1, k2⟩ := construct_sound hV hc
      exact ⟨_, by simp only [evalExp]; rw [h.ps, k1]; rfl, ⟨n, rfl, k2⟩, h⟩
  | empty nt => exact .ok ⟨⟨_, rfl, rfl⟩, h⟩
  | call f args =>
    simp only [aexp, evalExp, expWork]
    cases hx : aatoms a.env args with
    | none => trivial
    | some avs =>
      obtain ⟨vs, k1, k2⟩ := atoms_sound h.env hx
      rw [k1]
      have := hC f avs vs a.pos k2
      rw [← h.ps] at this
      simp only [Ans.of, Out.bind_ok]
      show Agrees _ _ (Ans.bind (.ok 0 avs) _) _ _
      simp only [Ans.bind]
      cases hr : acall f avs a.pos with
      | stuck => trivial
      | err k =>
        rw [hr] at this
        obtain ⟨⟨e, he⟩, hk⟩ := this
        rw [he]
        exact ⟨⟨e, rfl⟩, by simpa using hk⟩
      | ok k r =>
        rw [hr] at this
        obtain ⟨⟨b, he, h1, h2⟩, hk⟩ := this
        rw [he]
        exact ⟨⟨_, rfl, h1, h2, h.env⟩, by simpa using hk⟩
  | nilVec => exact .ok ⟨⟨_, rfl, rfl⟩, h⟩
  | pop x => trivial
  | prec o =>
    refine .of fun r hr => ?_
    cases ho : aoff a.env o with
    | none => rw [ho] at hr; cases hr
    | some n =>
      rw [ho] at hr
      cases hp : aprec w a.pos n with
      | none => simp [hp] at hr
      | some q =>
        simp only [Option.bind, hp, Option.map, Option.some.injEq] at hr
        subst hr
        refine ⟨(.nat q, s), ?_, rfl, h⟩
        simp only [evalExp, off_sound h.env ho, Out.bind_ok]
        rw [h.ps, prec_sound hV hp]
        rfl
  | natLit n => exact .ok ⟨rfl, h⟩
  | boolLit n => exact .ok ⟨rfl, h⟩
  | kws n => exact .ok ⟨rfl, h⟩
  | upperLit o =>
    refine .of fun r hr => ?_
    cases ho : atok w a o with
    | none => rw [ho] at hr; cases hr
    | some t =>
      rw [ho] at hr
      cases hr
      obtain ⟨t', k1, k2⟩ := tok_sound hV h ho
      exact ⟨_, by simp only [evalExp, k1]; rfl, by rw [RV, k2.upper], h⟩
  | cond c =>
    refine .of fun r hr => ?_
    cases ho : acond w a c with
    | none => rw [ho] at hr; cases hr
    | some b =>
      rw [ho] at hr
      cases hr
      exact ⟨(.bool b, s), by simp only [evalExp, cond_sound hV h c ho]; rfl, rfl, h⟩

omit hV hC in
/-- What is known of the way a command ends is true. -/
def RF : AFlow → Flow → Prop
  | .norm, .norm => True
  | .brk, .brk => True
  | .ret a, .ret v => RV a v
  | _, _ => False

omit hV hC in
/-- The same with the state. -/
def RFS (w : Window) (p g : Nat) (x : AFlow × ASt) (y : Flow × St) : Prop := RF x.1 y.1 ∧ RS w p g x.2 y.2

omit hV hC in
theorem iterate_sound {af : ASt → Ans (AFlow × ASt)} {f : St → Out (Flow × St)} {d : St → Nat}
    (hf : ∀ a s, RS w p g a s → Agrees (RFS w p g) W (af a) (f s) (d s)) :
    ∀ (n k : Nat), n ≤ k → ∀ a s, RS w p g a s →
      Agrees (RFS w p g) W (aiterate af n a) (iterate f k s) (iterateWork d f k s)
  | 0, _, _, _, _, _ => trivial
  | n + 1, k, hk, a, s, h => by
    obtain ⟨k, rfl⟩ : ∃ j, k = j + 1 := ⟨k - 1, by omega⟩
    have h1 := hf a s h
    simp only [aiterate, iterate, iterateWork]
    cases ha : af a with
    | stuck => trivial
    | err j =>
      rw [ha] at h1
      obtain ⟨⟨e, he⟩, hj⟩ := h1
      rw [he]
      exact ⟨⟨e, rfl⟩, by simp only; omega⟩
    | ok j r =>
      rw [ha] at h1
      obtain ⟨⟨b, he, hr1, hr2⟩, hj⟩ := h1
      rw [he]
      obtain ⟨fl, st⟩ := b
      obtain ⟨afl, ast⟩ := r
      simp only [Ans.bind]
      cases afl <;> cases fl <;> try exact hr1.elim
      · have h2 := iterate_sound hf n k (by omega) ast st hr2
        simp only
        cases hx : aiterate af n ast with
        | stuck => trivial
        | err i =>
          rw [hx] at h2
          exact ⟨h2.1, by rw [Nat.add_mul]; have := h2.2; omega⟩
        | ok i c =>
          rw [hx] at h2
          exact ⟨h2.1, by rw [Nat.add_mul]; have := h2.2; omega⟩
      · exact ⟨⟨_, rfl, trivial, hr2⟩, by simp only [Nat.add_zero]; omega⟩
      · exact ⟨⟨_, rfl, hr1, hr2⟩, by simp only [Nat.add_zero]; omega⟩

omit hV hC in
theorem scan_sound {af : ASt → Ans (AFlow × ASt)} {f : St → Out (Flow × St)} {d : St → Nat} {x : Var}
    {adone : ASt → Ans (AFlow × ASt)} {done : St → Out (Flow × St)}
    (hf : ∀ a s, RS w p g a s → Agrees (RFS w p g) W (af a) (f s) (d s)) :
    ∀ (n k : Nat), n ≤ k → ((∀ a, adone a = .stuck) ∨
      (n = k ∧ ∀ a s, RS w p g a s → Agrees (RFS w p g) W (adone a) (done s) 0)) → ∀ i a s, RS w p g a s →
      Agrees (RFS w p g) W (ascan af x adone n i a) (scanLoop f x done k i s) (scanWork d f x k i s)
  | 0, k, _, hd, i, a, s, h => by
    rcases hd with hd | ⟨rfl, hd⟩
    · simp only [ascan]; rw [hd]; trivial
    · exact hd a s h
  | n + 1, k, hk, hd, i, a, s, h => by
    obtain ⟨k, rfl⟩ : ∃ j, k = j + 1 := ⟨k - 1, by omega⟩
    have h1 := hf { a with env := a.env.set x (.nat i) } { s with env := s.env.set x (.nat i) } ⟨h.ps, h.env.set x rfl⟩
    simp only [ascan, scanLoop, scanWork]
    cases ha : af { a with env := a.env.set x (.nat i) } with
    | stuck => trivial
    | err j =>
      rw [ha] at h1
      obtain ⟨⟨e, he⟩, hj⟩ := h1
      rw [he]
      exact ⟨⟨e, rfl⟩, by simp only; omega⟩
    | ok j r =>
      rw [ha] at h1
      obtain ⟨⟨b, he, hr1, hr2⟩, hj⟩ := h1
      rw [he]
      obtain ⟨fl, st⟩ := b
      obtain ⟨afl, ast⟩ := r
      simp only [Ans.bind]
      cases afl <;> cases fl <;> try exact hr1.elim
      · have h2 := scan_sound (x := x) (done := done) hf n k (by omega)
          (hd.imp id fun hd => ⟨by omega, hd.2⟩) (i + 1) ast st hr2
        simp only
        cases hx : ascan af x adone n (i + 1) ast with
        | stuck => trivial
        | err i =>
          rw [hx] at h2
          exact ⟨h2.1, by rw [Nat.add_mul]; have := h2.2; omega⟩
        | ok i c =>
          rw [hx] at h2
          exact ⟨h2.1, by rw [Nat.add_mul]; have := h2.2; omega⟩
      · exact ⟨⟨_, rfl, trivial, hr2⟩, by simp only [Nat.add_zero]; omega⟩
      · exact ⟨⟨_, rfl, hr1, hr2⟩, by simp only [Nat.add_zero]; omega⟩

theorem exec_sound (hF : rounds ≤ C.fuel) : ∀ (c : Cmd) {a : ASt} {s : St}, RS w p g a s →
    Agrees (RFS w p g) W (aexec w acall c a) (exec C c s) (work C m c s) := by
  intro c
  have hexp : ∀ {a : ASt} {s : St}, RS w p g a s → ∀ (e : Exp) (f : AVal × ASt → Ans (AFlow × ASt))
      (f' : Val × St → Out (Flow × St)),
      (∀ av a' v s', RV av v → RS w p g a' s' → Agrees (RFS w p g) W (f (av, a')) (f' (v, s')) 0) →
      Agrees (RFS w p g) W ((aexp w acall a e).bind f) (evalExp C s e >>= f') (expWork m s e) := by
    intro a s h e f f' hf
    refine (exp_sound hV hC h e).bind (fun x y hxy _ => ?_) (Nat.le_refl _)
    rw [Nat.sub_self]
    exact hf _ _ _ _ hxy.1 hxy.2
  induction c with
  | skip => exact fun h => .ok ⟨trivial, h⟩
  | seq c d ihc ihd =>
    intro a s h
    have h1 := ihc h
    simp only [aexec, exec, work]
    cases ha : aexec w acall c a with
    | stuck => trivial
    | err j =>
      rw [ha] at h1
      obtain ⟨⟨e, he⟩, hj⟩ := h1
      rw [he]
      exact ⟨⟨e, rfl⟩, by simp only; omega⟩
    | ok j r =>
      rw [ha] at h1
      obtain ⟨⟨b, he, hr1, hr2⟩, hj⟩ := h1
      rw [he]
      obtain ⟨fl, st⟩ := b
      obtain ⟨afl, ast⟩ := r
      simp only [Ans.bind]
      cases afl <;> cases fl <;> try exact hr1.elim
      · have h2 := ihd (a := ast) (s := st) hr2
        simp only
        cases hx : aexec w acall d ast with
        | stuck => trivial
        | err i =>
          rw [hx] at h2
          exact ⟨h2.1, by rw [Nat.add_mul]; have := h2.2; omega⟩
        | ok i c =>
          rw [hx] at h2
          exact ⟨h2.1, by rw [Nat.add_mul]; have := h2.2; omega⟩
      · exact ⟨⟨_, rfl, trivial, hr2⟩, by simp only [Nat.add_zero]; omega⟩
      · exact ⟨⟨_, rfl, hr1, hr2⟩, by simp only [Nat.add_zero]; omega⟩
  | next =>
    intro a s h
    refine .of fun r hr => ?_
    cases hn : anext w a.pos with
    | none => rw [hn] at hr; cases hr
    | some i =>
      rw [hn] at hr
      cases hr
      refine ⟨(.norm, { s with ps := ps_ w p g i }), ?_, trivial, rfl, h.env⟩
      simp only [exec]
      rw [h.ps, next_sound hV hn]
      rfl
  | set x e =>
    intro a s h
    exact hexp h e _ (fun r => .ok (.norm, { r.2 with env := r.2.env.set x r.1 })) fun av a' v s' h1 h2 =>
      .ok ⟨trivial, h2.ps, h2.env.set x h1⟩
  | push x k e =>
    intro a s h
    refine hexp h e _ (fun r => match r.2.env x, r.1 with
      | .node n, .node c => .ok (.norm, { r.2 with env := r.2.env.set x (.node (n.pushNode k c)) })
      | _, _ => .panic .stuck) fun av a' v s' h1 h2 => ?_
    have := h2.env x
    simp only
    cases hx : a'.env x <;> cases av <;> simp only <;> try trivial
    rw [hx] at this
    obtain ⟨n, k1, k2⟩ := this
    obtain ⟨c, k3, k4⟩ := h1
    rw [k1, k3]
    refine .ok ⟨trivial, h2.ps, ?_⟩
    intro y
    simp only [Env.set]
    split
    · rename_i hy
      subst hy
      rw [hx]
      exact ⟨_, rfl, by rw [← k2]; cases n; rfl⟩
    · exact h2.env y
  | pushVec x k e =>
    intro a s h
    refine hexp h e _ (fun r => match r.2.env x, r.1 with
      | .node n, .vec c => .ok (.norm, { r.2 with env := r.2.env.set x (.node (n.pushVec k c)) })
      | _, _ => .panic .stuck) fun av a' v s' h1 h2 => ?_
    have := h2.env x
    simp only
    cases hx : a'.env x <;> cases av <;> simp only <;> try trivial
    rw [hx] at this
    obtain ⟨n, k1, k2⟩ := this
    obtain ⟨c, k3, k4⟩ := h1
    rw [k1, k3]
    refine .ok ⟨trivial, h2.ps, ?_⟩
    intro y
    simp only [Env.set]
    split
    · rename_i hy
      subst hy
      rw [hx]
      exact ⟨_, rfl, by rw [← k2]; cases n; rfl⟩
    · exact h2.env y
  | append x e =>
    intro a s h
    refine hexp h e _ (fun r => match r.2.env x, r.1 with
      | .vec ns, .node c => .ok (.norm, { r.2 with env := r.2.env.set x (.vec (ns ++ [c])) })
      | _, _ => .panic .stuck) fun av a' v s' h1 h2 => ?_
    have := h2.env x
    simp only
    cases hx : a'.env x <;> cases av <;> simp only <;> try trivial
    rw [hx] at this
    obtain ⟨n, k1, k2⟩ := this
    obtain ⟨c, k3, k4⟩ := h1
    rw [k1, k3]
    exact .ok ⟨trivial, h2.ps, h2.env.set x ⟨_, rfl, by rw [List.map_append, k2, List.map_singleton, k4]⟩⟩
  | setType x nt =>
    intro a s h
    have := h.env x
    simp only [aexec, exec]
    cases hx : a.env x <;> simp only <;> try trivial
    rw [hx] at this
    obtain ⟨n, k1, k2⟩ := this
    rw [k1]
    exact .ok ⟨trivial, h.ps, h.env.set x ⟨_, rfl, by cases n; rfl⟩⟩
  | ite c d e ihd ihe =>
    intro a s h
    simp only [aexec, exec, work]
    cases hc : acond w a c with
    | none => trivial
    | some b =>
      rw [cond_sound hV h c hc]
      cases b
      · exact ihe h
      · exact ihd h
  | loop c ih => exact fun h => iterate_sound (fun a s h => ih h) _ _ hF _ _ h
  | brk => exact fun h => .ok ⟨trivial, h⟩
  | ret e =>
    intro a s h
    exact hexp h e _ (fun r => .ok (.ret r.1, r.2)) fun av a' v s' h1 h2 => .ok ⟨h1, h2⟩
  | fail o l =>
    intro a s h
    simp only [aexec, exec]
    cases ho : atok w a o with
    | none => trivial
    | some t =>
      obtain ⟨t', k1, k2⟩ := tok_sound hV h ho
      rw [k1]
      exact ⟨⟨_, rfl⟩, by simp⟩
  | scan x lo hi c ih =>
    intro a s h
    cases hi with
    | none => exact scan_sound (fun a s h => ih h) _ _ hF (.inl fun _ => rfl) _ _ _ h
    | some hi =>
      simp only [aexec, exec, work]
      cases hh : aatom a.env hi with
      | none => trivial
      | some av =>
        obtain ⟨v, k1, k2⟩ := atom_sound h.env hh
        cases av <;> simp only <;> try trivial
        rw [k1, show v = _ from k2]
        exact scan_sound (fun a s h => ih h) _ _ (Nat.le_refl _)
          (.inr ⟨rfl, fun a s h => .ok (a := (AFlow.norm, a)) (b := (Flow.norm, s)) ⟨trivial, h⟩⟩) _ _ _ h
  | drain v x c ih => exact fun h => trivial
  | tryElse x f args c ih =>
    intro a s h
    simp only [aexec, exec, work]
    cases hx : aatoms a.env args with
    | none => trivial
    | some avs =>
      obtain ⟨vs, k1, k2⟩ := atoms_sound h.env hx
      rw [k1]
      have h1 := hC f avs vs a.pos k2
      rw [← h.ps] at h1
      simp only [Ans.of, Out.bind_ok]
      show Agrees _ _ (Ans.bind (.ok 0 avs) _) _ _
      simp only [Ans.bind]
      cases hr : acall f avs a.pos with
      | stuck => trivial
      | ok k r =>
        rw [hr] at h1
        obtain ⟨⟨b, he, h3, h4⟩, hk⟩ := h1
        rw [he]
        exact ⟨⟨_, rfl, trivial, h4, h.env.set x h3⟩, by simp only [Nat.zero_add, Nat.add_zero]; exact hk⟩
      | err k =>
        rw [hr] at h1
        obtain ⟨⟨e, he⟩, hk⟩ := h1
        rw [he]
        have h2 := ih h
        simp only
        cases hy : aexec w acall c a with
        | stuck => trivial
        | err i =>
          rw [hy] at h2
          exact ⟨h2.1, by simp only [Nat.zero_add]; rw [Nat.add_mul]; have := h2.2; omega⟩
        | ok i c =>
          rw [hy] at h2
          exact ⟨h2.1, by simp only [Nat.zero_add]; rw [Nat.add_mul]; have := h2.2; omega⟩

end

theorem bind_sound : ∀ {avs : List AVal} {vs : List Val}, RVs avs vs → ∀ xs, REnv (abind xs avs) (bindParams xs vs)
  | [], [], _, xs => by
    intro y
    cases xs <;> trivial
  | a :: as, v :: vs, h, xs => by
    cases xs with
    | nil => intro y; trivial
    | cons x xs => exact (bind_sound h.2 xs).set x h.1
  | [], _ :: _, h, _ => h.elim
  | _ :: _, [], h, _ => h.elim

/-- The gap is parsed like a query, and this takes the work `W`. -/
def GapOk (w : Window) (U : Unicode) (T : List Token) (fuel p g D W : Nat) : Prop :=
  w.gap < w.lits.length → ∀ N, D ≤ N → (∃ n, callN U Program.defs T fuel N .parse_select_statement [.bool false, .bool true] (ps_ w p g w.gap) =
      .ok (.node n, ps_ w p g (w.gap + 1)) ∧ n.ty = w.query) ∧
    W ≤ workN U Program.defs T fuel N .parse_select_statement [.bool false, .bool true] (ps_ w p g w.gap)

theorem call_sound {w : Window} {U : Unicode} {T : List Token} {fuel p g D W : Nat} (hV : View w U T p g)
    (hF : rounds ≤ fuel) (hG : GapOk w U T fuel p g D W) : ∀ n N, D + n ≤ N →
    RCall w p g W (acall w n) (callN U Program.defs T fuel N) (workN U Program.defs T fuel N)
  | 0, _, _ => fun _ _ _ _ _ => trivial
  | n + 1, N, hN => by
    intro f avs vs i hvs
    simp only [acall]
    split
    · rename_i hg
      unfold isGap at hg
      simp only [Bool.and_eq_true, beq_iff_eq, decide_eq_true_eq] at hg
      obtain ⟨⟨⟨rfl, rfl⟩, hlt⟩, hg⟩ := hg
      split at hg
      · obtain ⟨v1, v2, rfl⟩ : ∃ v1 v2, vs = [v1, v2] := by
          match vs, hvs with
          | [v1, v2], _ => exact ⟨v1, v2, rfl⟩
          | [], h => exact h.elim
          | [_], h => exact h.2.elim
          | _ :: _ :: _ :: _, h => exact h.2.2.elim
        obtain ⟨h1, h2, _⟩ := hvs
        rw [show v1 = _ from h1, show v2 = _ from h2]
        obtain ⟨⟨q, k1, k2⟩, k3⟩ := hG hlt N (by omega)
        exact ⟨⟨_, k1, ⟨q, rfl, k2⟩, rfl⟩, by omega⟩
      · cases hg
    · obtain ⟨N, rfl⟩ : ∃ j, N = j + 1 := ⟨N - 1, by omega⟩
      have := exec_sound (C := ⟨U, T, fuel, callN U Program.defs T fuel N⟩) hV
        (call_sound hV hF hG n N (by omega)) hF (Program.defs f).body
        (a := ⟨i, abind (Program.defs f).params avs⟩) (s := ⟨ps_ w p g i, bindParams (Program.defs f).params vs⟩)
        ⟨rfl, bind_sound hvs _⟩
      simp only [callN, workN, runBody]
      generalize hx : aexec w (acall w n) (Program.defs f).body ⟨i, abind (Program.defs f).params avs⟩ = x at this ⊢
      cases x with
      | stuck => trivial
      | err k =>
        obtain ⟨⟨e, he⟩, hk⟩ := this
        rw [he]
        exact ⟨⟨e, rfl⟩, by omega⟩
      | ok k r =>
        obtain ⟨⟨b, he, hr1, hr2⟩, hk⟩ := this
        rw [he]
        obtain ⟨fl, st⟩ := b
        obtain ⟨afl, ast⟩ := r
        simp only [Ans.bind]
        cases afl <;> cases fl <;> first | exact hr1.elim | trivial | skip
        exact ⟨⟨_, rfl, hr1, hr2.ps⟩, by simp only [Nat.add_zero]; omega⟩

end Verif.Slow
