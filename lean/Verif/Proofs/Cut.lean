import Verif.Proofs.Strict
/-!
Two runs: the strict parser on the tokens of one statement, its `;` and a comment, and the parser on a
longer list that contains them.  Unless the first one fails, they behave alike.
-/
namespace Verif.Cut
open Core Interp
open GI hiding exec

/-- Two lists of tokens with a common part of length `L`, which begins at `0` and `p`. -/
structure Toks (T1 T2 : List Token) (p L : Nat) : Prop where
  tok : ∀ i, i < L → ∃ t, T1[i]? = some t ∧ T2[p + i]? = some t ∧ t.isComment = false
  len : T1.length = L + 1
  com : ∀ t, T1[L]? = some t → t.isComment = true
  nxt : ∃ t, T2[p + L]? = some t ∧ t.isComment = false

/-- A state within the common part. -/
structure In (L : Nat) (s : PS) : Prop where
  pos : s.pos < L
  lead : s.lead = []
  trail : s.trail = []

/-- The same state in the longer list. -/
def sh (p : Nat) (s : PS) : PS := ⟨p + s.pos, [], []⟩
/-- The same for activations. -/
def shS (p : Nat) (s : St) : St := ⟨sh p s.ps, s.env⟩

/-- Unless the first outcome is an error, the second one is the same. -/
def Same {α : Type} (I : α → Prop) (f : α → α) (x y : Out α) : Prop :=
  match x with
  | .ok a => I a ∧ y = .ok (f a)
  | .err _ => True
  | .panic q => y = .panic q
  | .timeout => y = .timeout

theorem Same.bind {α β : Type} {I : α → Prop} {f : α → α} {J : β → Prop} {g : β → β} {x y : Out α}
    {k k' : α → Out β} (h : Same I f x y) (hk : ∀ a, I a → Same J g (k a) (k' (f a))) :
    Same J g (x >>= k) (y >>= k') := by
  cases x with
  | ok a => obtain ⟨h1, rfl⟩ := h; exact hk a h1
  | err e => trivial
  | panic q => cases h; rfl
  | timeout => cases h; rfl

theorem scanFrom_none (off : Nat) : ∀ (l : List Token) (cnt idx : Nat),
    (∀ j t, l[j]? = some t → t.isComment = true ∨ j + cnt + 1 < off) → scanFrom off cnt idx l = none
  | [], _, _, _ => rfl
  | t :: l, cnt, idx, h => by
    simp only [scanFrom]
    rcases h 0 t rfl with h0 | h0
    · rw [if_pos h0]
      exact scanFrom_none off l cnt _ fun j t ht => (h (j + 1) t ht).imp id fun h => by omega
    · split
      · exact scanFrom_none off l cnt _ fun j t ht => (h (j + 1) t ht).imp id fun h => by omega
      · rw [if_neg (by omega)]
        exact scanFrom_none off l (cnt + 1) _ fun j t ht => (h (j + 1) t ht).imp id fun h => by omega

section
variable {T1 T2 : List Token} {p L : Nat} (hT : Toks T1 T2 p L)
include hT

theorem offset_in {s : PS} (n : Nat) (hn : s.pos + n < L) :
    getOffsetIndex T1 s n = .ok (s.pos + n) ∧ getOffsetIndex T2 (sh p s) n = .ok (p + (s.pos + n)) := by
  unfold getOffsetIndex
  by_cases h0 : n = 0
  · subst h0; simp [sh]
  · rw [if_neg h0, if_neg h0]
    have hlt1 := hT.len
    obtain ⟨t2, ht2, _⟩ := hT.nxt
    have hlt2 := (List.getElem?_eq_some_iff.1 ht2).1
    rw [scanFrom_nc n (T1.drop (s.pos + 1)) 0 (s.pos + 1) (fun j u hj hu => by
        rw [List.getElem?_drop] at hu
        obtain ⟨t, h1, _, h3⟩ := hT.tok (s.pos + 1 + j) (by omega)
        rw [h1] at hu; cases hu; exact h3) (by omega) (by rw [List.length_drop]; omega),
      scanFrom_nc n (T2.drop ((sh p s).pos + 1)) 0 ((sh p s).pos + 1) (fun j u hj hu => by
        rw [List.getElem?_drop] at hu
        obtain ⟨t, _, h2, h3⟩ := hT.tok (s.pos + 1 + j) (by omega)
        rw [show (sh p s).pos + 1 + j = p + (s.pos + 1 + j) by simp only [sh]; omega, h2] at hu
        cases hu; exact h3) (by omega) (by rw [List.length_drop]; simp only [sh]; omega)]
    simp only [sh, Out.ok.injEq]
    omega

theorem offset_out {s : PS} (hs : In L s) (n : Nat) (hn : L ≤ s.pos + n) : ∃ e, getOffsetIndex T1 s n = .err e := by
  unfold getOffsetIndex
  have := hs.pos
  rw [if_neg (by omega), scanFrom_none n _ 0 _ (fun j u hu => by
    rw [List.getElem?_drop] at hu
    by_cases hj : s.pos + 1 + j < L
    · right; omega
    · left
      have h1 := (List.getElem?_eq_some_iff.1 hu).1
      have h2 := hT.len
      exact hT.com u (by rw [← hu]; congr 1; omega))]
  cases hl : T1.getLast? with
  | none =>
    have := hT.len
    rw [List.getLast?_eq_none_iff] at hl
    subst hl
    simp at this
  | some t => exact ⟨_, rfl⟩

theorem token {s : PS} (hs : In L s) (n : Nat) : (∃ e, getToken T1 s n = .err e) ∨
    ∃ t, getToken T1 s n = .ok t ∧ getToken T2 (sh p s) n = .ok t ∧ s.pos + n < L := by
  by_cases hn : s.pos + n < L
  · right
    obtain ⟨h1, h2⟩ := offset_in hT n hn
    obtain ⟨t, h3, h4, _⟩ := hT.tok _ hn
    exact ⟨t, by simp only [getToken, h1, tokAt, h3], by simp only [getToken, h2, tokAt, h4], hn⟩
  · left
    obtain ⟨e, he⟩ := offset_out hT hs n (by omega)
    exact ⟨e, by simp only [getToken, he]⟩

theorem token_same {s : PS} (hs : In L s) (n : Nat) :
    Same (fun _ => True) id (getToken T1 s n) (getToken T2 (sh p s) n) := by
  rcases token hT hs n with ⟨e, h⟩ | ⟨t, h1, h2, _⟩
  · rw [h]; trivial
  · rw [h1, h2]; exact ⟨trivial, rfl⟩

theorem eof_in {s : PS} (n : Nat) (hn : s.pos + n < L) :
    isEof T1 s n = false ∧ isEof T2 (sh p s) n = false := by
  obtain ⟨h1, h2⟩ := offset_in hT n hn
  have h3 := hT.len
  obtain ⟨t, ht, _⟩ := hT.nxt
  have h4 := (List.getElem?_eq_some_iff.1 ht).1
  constructor
  · simp only [isEof, h1, decide_eq_false_iff_not]; omega
  · simp only [isEof, h2, decide_eq_false_iff_not]; omega

omit hT in
theorem trailing_self (line idx : Nat) (l : List Token) : trailing line idx idx l = [] := by
  cases l <;> simp [trailing]

/-- One step to a token whose successor is known. -/
theorem next_to {T : List Token} {s : PS} (hl : s.trail = []) {t u : Token} (h1 : T[s.pos + 1]? = some t)
    (hc : t.isComment = false) (h2 : T[s.pos + 2]? = some u) (hu : u.isComment = false) :
    nextToken T s = .ok ⟨s.pos + 1, [], []⟩ := by
  have ho : ∀ (q : Nat) (v : Token) (s : PS), s.pos = q → T[q + 1]? = some v → v.isComment = false →
      getOffsetIndex T s 1 = .ok (q + 1) := by
    rintro _ v s rfl hv hvc
    unfold getOffsetIndex
    obtain ⟨hlt, he⟩ := List.getElem?_eq_some_iff.1 hv
    rw [if_neg (by omega), List.drop_eq_getElem_cons hlt, he]
    simp [scanFrom, hvc]
  unfold nextToken
  rw [ho _ t s rfl h1 hc, hl]
  simp only [List.getLast?_nil]
  rw [ho (s.pos + 1) u _ rfl h2 hu]
  simp only [tokAt, h1, trailing_self, range, Nat.sub_self, List.range'_zero]

theorem next_same {s : PS} (hs : In L s) : Same (In L) (sh p) (nextToken T1 s) (nextToken T2 (sh p s)) := by
  have hp := hs.pos
  by_cases h1 : s.pos + 1 < L
  · obtain ⟨t, ht1, ht2, htc⟩ := hT.tok _ h1
    have hr : nextToken T2 (sh p s) = .ok (sh p ⟨s.pos + 1, [], []⟩) := by
      obtain ⟨u, hu, huc⟩ : ∃ u, T2[p + (s.pos + 2)]? = some u ∧ u.isComment = false := by
        by_cases h2 : s.pos + 2 < L
        · obtain ⟨u, _, hu, huc⟩ := hT.tok _ h2
          exact ⟨u, hu, huc⟩
        · obtain ⟨u, hu, huc⟩ := hT.nxt
          exact ⟨u, by rw [← hu]; congr 1; omega, huc⟩
      rw [next_to (t := t) (u := u) hT rfl (by rw [← ht2]; rfl) htc (by rw [← hu]; rfl) huc]
      rfl
    have hl : nextToken T1 s = .ok ⟨s.pos + 1, [], []⟩ := by
      by_cases h2 : s.pos + 2 < L
      · obtain ⟨u, hu, _, huc⟩ := hT.tok _ h2
        exact next_to hT hs.trail ht1 htc hu huc
      · unfold nextToken
        rw [(offset_in hT 1 h1).1, hs.trail]
        simp only [List.getLast?_nil]
        obtain ⟨e, he⟩ := offset_out hT (s := ⟨s.pos + 1, range (s.pos + 1) (s.pos + 1), []⟩)
          ⟨h1, by simp [range], rfl⟩ 1 (by show L ≤ s.pos + 1 + 1; omega)
        rw [he]
        simp [range]
    rw [hl, hr]
    exact ⟨⟨h1, rfl, rfl⟩, rfl⟩
  · obtain ⟨e, he⟩ := offset_out hT hs 1 (by omega)
    have : nextToken T1 s = .err e := by unfold nextToken; rw [he]
    rw [this]
    trivial

omit hT in
theorem attach_nil (T : List Token) (q : Nat) (n : Node) : attachComments T ⟨q, [], []⟩ n = .ok n := by
  simp [attachComments, commentNodes]

theorem construct_same {U : Unicode} {s : PS} (hs : In L s) (nt : NodeType) :
    Same (fun _ => True) id (construct U T1 s nt) (construct U T2 (sh p s) nt) := by
  have hsq : s = ⟨s.pos, [], []⟩ := by
    cases s; obtain ⟨_, h1, h2⟩ := hs; simp_all
  have h0 := token_same hT hs 0
  have h1 := token_same hT hs 1
  unfold construct
  cases hx : getToken T1 s 0 with
  | err e => trivial
  | panic q => rw [hx] at h0; rw [show getToken T2 (sh p s) 0 = _ from h0]; rfl
  | timeout => rw [hx] at h0; rw [show getToken T2 (sh p s) 0 = _ from h0]; rfl
  | ok t =>
    rw [hx] at h0
    rw [h0.2]
    simp only [id]
    have ha : ∀ n, Same (fun _ => True) id (attachComments T1 s n) (attachComments T2 (sh p s) n) := by
      intro n
      rw [hsq, attach_nil]
      rw [show sh p ⟨s.pos, [], []⟩ = ⟨p + s.pos, [], []⟩ from rfl, attach_nil]
      exact ⟨trivial, rfl⟩
    split
    · exact ha _
    · split
      · have hc : Same (fun _ => True) id (classify U T1 s t) (classify U T2 (sh p s) t) := by
          unfold classify
          cases hy : getToken T1 s 1 with
          | err e =>
            simp only
            repeat' split
            all_goals first | exact ⟨trivial, rfl⟩ | trivial
          | panic q =>
            rw [hy] at h1
            rw [show getToken T2 (sh p s) 1 = _ from h1]
            simp only
            repeat' split
            all_goals first | exact ⟨trivial, rfl⟩ | rfl
          | timeout =>
            rw [hy] at h1
            rw [show getToken T2 (sh p s) 1 = _ from h1]
            simp only
            repeat' split
            all_goals first | exact ⟨trivial, rfl⟩ | rfl
          | ok u =>
            rw [hy] at h1
            rw [h1.2]
            simp only [id]
            repeat' split
            all_goals exact ⟨trivial, rfl⟩
        cases hz : classify U T1 s t with
        | err e => trivial
        | panic q => rw [hz] at hc; rw [show classify U T2 (sh p s) t = _ from hc]; rfl
        | timeout => rw [hz] at hc; rw [show classify U T2 (sh p s) t = _ from hc]; rfl
        | ok ty => rw [hz] at hc; rw [hc.2]; exact ha _
      · exact ha _

theorem prec_same {U : Unicode} {s : PS} (hs : In L s) (n : Nat) :
    Same (fun _ => True) id (getPrecedence U T1 s n) (getPrecedence U T2 (sh p s) n) := by
  rw [Rel.getPrecedence_eq, Rel.getPrecedence_eq]
  refine (token_same hT hs n).bind fun t _ => ?_
  simp only [id]
  split
  · refine (token_same hT hs (n + 1)).bind fun t _ => ?_
    simp only [id]
    split
    · exact ⟨trivial, rfl⟩
    · split
      · exact ⟨trivial, rfl⟩
      · trivial
  · exact ⟨trivial, rfl⟩
end

section
variable {C C' : Ctx} {p L : Nat} (hT : Toks C.toks C'.toks p L) (hU : C'.U = C.U)
include hT hU

omit hU in
theorem offTok_same {s : St} (hs : In L s.ps) (o : Off) :
    Same (fun _ => True) id (offTok C s o) (offTok C' (shS p s) o) := by
  unfold offTok
  rw [show (shS p s).env = s.env from rfl, show (shS p s).ps = sh p s.ps from rfl]
  cases hv : evalOff s.env o with
  | ok n => exact token_same hT hs n
  | err e => trivial
  | panic q => rfl
  | timeout => rfl

omit hU in
/-- The additional test of the strict parser. -/
theorem need_same {s : St} (hs : In L s.ps) (o : Off) :
    (∃ e, evalCond C s (need o) = .err e) ∨
    (evalCond C s (need o) = .ok true ∧ ∃ n, evalOff s.env o = .ok n ∧ s.ps.pos + n < L ∧
      ∃ t, getToken C'.toks (sh p s.ps) n = .ok t) ∨
    ∃ q, evalOff s.env o = .panic q ∧ evalCond C s (need o) = .panic q := by
  simp only [need, evalCond]
  unfold offTok
  cases hv : evalOff s.env o with
  | err e => exact absurd hv (Rel.evalOff_ne_err _ _ _)
  | panic q => exact .inr (.inr ⟨q, rfl, rfl⟩)
  | timeout => cases o <;> simp [evalOff] at hv; split at hv <;> simp at hv
  | ok n =>
    rcases token hT hs n with ⟨e, he⟩ | ⟨t, h1, h2, h3⟩
    · left; simp only [Out.bind_ok, he]; exact ⟨e, rfl⟩
    · right; left
      simp only [Out.bind_ok, h1]
      exact ⟨rfl, n, rfl, h3, t, h2⟩

theorem cond_same {s : St} (hs : In L s.ps) (c : Cond) :
    Same (fun _ => True) id (evalCond C s (strictC c)) (evalCond C' (shS p s) c) := by
  have hb : ∀ b : Bool, Same (fun _ => True) id (.ok b) (.ok b) := fun b => ⟨trivial, rfl⟩
  induction c with
  | up o ks => exact (offTok_same hT hs o).bind fun t _ => by rw [hU]; exact hb _
  | raw o ks => exact (offTok_same hT hs o).bind fun t _ => hb _
  | upVar o x =>
    refine (offTok_same hT hs o).bind fun t _ => ?_
    rw [hU, show (shS p s).env = s.env from rfl]
    simp only [id]
    split
    · exact hb _
    · rfl
  | isIdent o => exact (offTok_same hT hs o).bind fun t _ => by rw [hU]; exact hb _
  | isStr o => exact (offTok_same hT hs o).bind fun t _ => hb _
  | isNum o => exact (offTok_same hT hs o).bind fun t _ => hb _
  | eof o =>
    rw [strictC, show evalCond C s (.and (need o) (.eof o)) =
      (evalCond C s (need o) >>= fun b => if b = true then evalCond C s (.eof o) else .ok false) from rfl]
    rcases need_same hT hs o with ⟨e, h⟩ | ⟨h, n, hn, hlt, _⟩ | ⟨q, hq, h⟩
    · rw [h]; trivial
    · rw [h]
      simp only [Out.bind_ok, if_true, evalCond, hn, show (shS p s).env = s.env from rfl,
        show (shS p s).ps = sh p s.ps from rfl]
      rw [(eof_in hT n hlt).1, (eof_in hT n hlt).2]
      exact hb _
    · rw [h]
      simp only [evalCond, show (shS p s).env = s.env from rfl, hq]
      rfl
  | hasTok o =>
    simp only [strictC]
    rcases need_same hT hs o with ⟨e, h⟩ | ⟨h, n, hn, hlt, t, ht⟩ | ⟨q, hq, h⟩
    · rw [h]; trivial
    · rw [h]
      simp only [evalCond, hn, show (shS p s).env = s.env from rfl, show (shS p s).ps = sh p s.ps from rfl,
        Out.bind_ok, ht]
      exact hb _
    · rw [h]
      simp only [evalCond, show (shS p s).env = s.env from rfl, hq]
      rfl
  | bvar x =>
    simp only [strictC, evalCond, show (shS p s).env = s.env from rfl]
    split
    · exact hb _
    · rfl
  | const b => exact hb _
  | precLt x =>
    simp only [strictC, evalCond, hU]
    refine (prec_same hT hs 1).bind fun t _ => ?_
    rw [show (shS p s).env = s.env from rfl]
    simp only [id]
    split
    · exact hb _
    · rfl
  | lenPos x =>
    simp only [strictC, evalCond, show (shS p s).env = s.env from rfl]
    split
    · exact hb _
    · rfl
  | lenOne x =>
    simp only [strictC, evalCond, show (shS p s).env = s.env from rfl]
    split
    · exact hb _
    · rfl
  | strIs x k =>
    simp only [strictC, evalCond, show (shS p s).env = s.env from rfl]
    split
    · exact hb _
    · rfl
  | typeIs x nt =>
    simp only [strictC, evalCond, show (shS p s).env = s.env from rfl]
    split
    · exact hb _
    · rfl
  | leftmostIs x nt =>
    simp only [strictC, evalCond, show (shS p s).env = s.env from rfl]
    split
    · exact hb _
    · rfl
  | hasAnyKey x ks =>
    simp only [strictC, evalCond, show (shS p s).env = s.env from rfl]
    split
    · exact hb _
    · rfl
  | firstCharIs c =>
    simp only [strictC, evalCond]
    refine (token_same hT hs 0).bind fun t _ => ?_
    simp only [id]
    split
    · exact hb _
    · rfl
  | lastCharIs c =>
    simp only [strictC, evalCond]
    refine (token_same hT hs 0).bind fun t _ => ?_
    simp only [id]
    split
    · exact hb _
    · rfl
  | adjacent =>
    simp only [strictC, evalCond]
    refine (token_same hT hs 0).bind fun t _ => ?_
    exact (token_same hT hs 1).bind fun u _ => hb _
  | and a b iha ihb =>
    simp only [strictC, evalCond]
    refine iha.bind fun x _ => ?_
    cases x
    · exact hb _
    · exact ihb
  | or a b iha ihb =>
    simp only [strictC, evalCond]
    refine iha.bind fun x _ => ?_
    cases x
    · exact ihb
    · exact hb _
  | not a ih =>
    simp only [strictC, evalCond]
    exact ih.bind fun x _ => hb _

/-- States after expressions, commands and calls. -/
def InV (L : Nat) (x : Val × St) : Prop := In L x.2.ps
def shV (p : Nat) (x : Val × St) : Val × St := (x.1, shS p x.2)
def InF (L : Nat) (x : Flow × St) : Prop := In L x.2.ps
def shF (p : Nat) (x : Flow × St) : Flow × St := (x.1, shS p x.2)
def InC (L : Nat) (x : Val × PS) : Prop := In L x.2
def shC (p : Nat) (x : Val × PS) : Val × PS := (x.1, sh p x.2)

/-- The calls agree. -/
def Calls (p L : Nat) (c c' : Fn → List Val → PS → Out (Val × PS)) : Prop :=
  ∀ f vs ps, In L ps → Same (InC L) (shC p) (c f vs ps) (c' f vs (sh p ps))

variable (hcall : Calls p L C.call C'.call)
include hcall

theorem exp_same {s : St} (hs : In L s.ps) (e : Exp) :
    Same (InV L) (shV p) (evalExp C s (strictE e)) (evalExp C' (shS p s) e) := by
  cases e with
  | var x => exact ⟨hs, rfl⟩
  | construct nt =>
    simp only [strictE, evalExp, hU]
    exact (construct_same hT hs nt).bind fun n _ => ⟨hs, rfl⟩
  | empty nt => exact ⟨hs, rfl⟩
  | call f args =>
    simp only [strictE, evalExp, show (shS p s).env = s.env from rfl, show (shS p s).ps = sh p s.ps from rfl]
    cases evalAtoms s.env args with
    | ok vs => exact (hcall f vs s.ps hs).bind fun x hx => ⟨hx, rfl⟩
    | err e => trivial
    | panic q => rfl
    | timeout => rfl
  | nilVec => exact ⟨hs, rfl⟩
  | pop x =>
    simp only [strictE, evalExp, show (shS p s).env = s.env from rfl]
    split
    · split
      · exact ⟨hs, rfl⟩
      · rfl
    · rfl
  | prec o =>
    simp only [strictE, evalExp, hU, show (shS p s).env = s.env from rfl]
    cases evalOff s.env o with
    | ok n => exact (prec_same hT hs n).bind fun x _ => ⟨hs, rfl⟩
    | err e => trivial
    | panic q => rfl
    | timeout => rfl
  | natLit n => exact ⟨hs, rfl⟩
  | boolLit b => exact ⟨hs, rfl⟩
  | kws ks => exact ⟨hs, rfl⟩
  | upperLit o =>
    simp only [strictE, evalExp, hU]
    exact (offTok_same hT hs o).bind fun t _ => ⟨hs, rfl⟩
  | cond c =>
    simp only [strictE, evalExp]
    exact (cond_same hT hU hs c).bind fun t _ => ⟨hs, rfl⟩

omit hT hU hcall in
theorem iterate_same {f g : St → Out (Flow × St)} (hf : ∀ s, In L s.ps → Same (InF L) (shF p) (f s) (g (shS p s))) :
    ∀ (n : Nat) (s : St), In L s.ps → Same (InF L) (shF p) (iterate f n s) (iterate g n (shS p s))
  | 0, _, _ => rfl
  | n + 1, s, hs => by
    have h := hf s hs
    simp only [iterate]
    rcases hx : f s with ⟨fl, s'⟩ | e | q | _ <;> rw [hx] at h
    · obtain ⟨h1, h2⟩ := h
      rw [h2]
      cases fl with
      | norm => exact iterate_same hf n s' h1
      | brk => exact ⟨h1, rfl⟩
      | ret v => exact ⟨h1, rfl⟩
    · trivial
    · rw [show g (shS p s) = _ from h]; rfl
    · rw [show g (shS p s) = _ from h]; rfl

omit hT hU hcall in
theorem scanLoop_same {f g : St → Out (Flow × St)} {x : Var} {d d' : St → Out (Flow × St)}
    (hf : ∀ s, In L s.ps → Same (InF L) (shF p) (f s) (g (shS p s)))
    (hd : ∀ s, In L s.ps → Same (InF L) (shF p) (d s) (d' (shS p s))) :
    ∀ (n i : Nat) (s : St), In L s.ps → Same (InF L) (shF p) (scanLoop f x d n i s) (scanLoop g x d' n i (shS p s))
  | 0, _, s, hs => hd s hs
  | n + 1, i, s, hs => by
    have h := hf { s with env := s.env.set x (.nat i) } hs
    rw [show shS p { s with env := s.env.set x (.nat i) } = { shS p s with env := (shS p s).env.set x (.nat i) } from rfl] at h
    simp only [scanLoop]
    rcases hx : f { s with env := s.env.set x (.nat i) } with ⟨fl, s'⟩ | e | q | _ <;> rw [hx] at h
    · obtain ⟨h1, h2⟩ := h
      rw [h2]
      cases fl with
      | norm => exact scanLoop_same hf hd n (i + 1) s' h1
      | brk => exact ⟨h1, rfl⟩
      | ret v => exact ⟨h1, rfl⟩
    · trivial
    · rw [show g _ = _ from h]; rfl
    · rw [show g _ = _ from h]; rfl

omit hT hU hcall in
theorem drainLoop_same {f g : St → Out (Flow × St)} {x : Var}
    (hf : ∀ s, In L s.ps → Same (InF L) (shF p) (f s) (g (shS p s))) :
    ∀ (ns : List Node) (s : St), In L s.ps → Same (InF L) (shF p) (drainLoop f x ns s) (drainLoop g x ns (shS p s))
  | [], _, hs => ⟨hs, rfl⟩
  | n :: ns, s, hs => by
    have h := hf { s with env := s.env.set x (.node n) } hs
    rw [show shS p { s with env := s.env.set x (.node n) } = { shS p s with env := (shS p s).env.set x (.node n) } from rfl] at h
    simp only [drainLoop]
    rcases hx : f { s with env := s.env.set x (.node n) } with ⟨fl, s'⟩ | e | q | _ <;> rw [hx] at h
    · obtain ⟨h1, h2⟩ := h
      rw [h2]
      cases fl with
      | norm => exact drainLoop_same hf ns s' h1
      | brk => exact ⟨h1, rfl⟩
      | ret v => exact ⟨h1, rfl⟩
    · trivial
    · rw [show g _ = _ from h]; rfl
    · rw [show g _ = _ from h]; rfl

variable (hfuel : C'.fuel = C.fuel)
include hfuel

theorem exec_same (c : Cmd) : ∀ s, In L s.ps → Same (InF L) (shF p) (exec C (strict c) s) (exec C' c (shS p s)) := by
  have he : ∀ {s : St}, In L s.ps → ∀ e, Same (InV L) (shV p) (evalExp C s (strictE e)) (evalExp C' (shS p s) e) :=
    fun hs e => exp_same hT hU hcall hs e
  induction c with
  | skip => exact fun s hs => ⟨hs, rfl⟩
  | seq a b iha ihb =>
    intro s hs
    have h := iha s hs
    simp only [strict, exec]
    rcases hx : exec C (strict a) s with ⟨fl, s'⟩ | e | q | _ <;> rw [hx] at h
    · obtain ⟨h1, h2⟩ := h
      rw [h2]
      cases fl with
      | norm => exact ihb s' h1
      | brk => exact ⟨h1, rfl⟩
      | ret v => exact ⟨h1, rfl⟩
    · trivial
    · rw [show exec C' a (shS p s) = _ from h]; rfl
    · rw [show exec C' a (shS p s) = _ from h]; rfl
  | next =>
    intro s hs
    simp only [strict, exec]
    exact (next_same hT hs).bind fun ps hps => ⟨hps, rfl⟩
  | set x e =>
    intro s hs
    simp only [strict, exec]
    exact (he hs e).bind fun y hy => ⟨hy, rfl⟩
  | push x k e =>
    intro s hs
    simp only [strict, exec]
    refine (he hs e).bind fun ⟨v, s'⟩ hy => ?_
    simp only [shV, show (shS p s').env = s'.env from rfl]
    split
    · exact ⟨hy, rfl⟩
    · rfl
  | pushVec x k e =>
    intro s hs
    simp only [strict, exec]
    refine (he hs e).bind fun ⟨v, s'⟩ hy => ?_
    simp only [shV, show (shS p s').env = s'.env from rfl]
    split
    · exact ⟨hy, rfl⟩
    · rfl
  | append x e =>
    intro s hs
    simp only [strict, exec]
    refine (he hs e).bind fun ⟨v, s'⟩ hy => ?_
    simp only [shV, show (shS p s').env = s'.env from rfl]
    split
    · exact ⟨hy, rfl⟩
    · rfl
  | setType x nt =>
    intro s hs
    simp only [strict, exec, show (shS p s).env = s.env from rfl]
    split
    · exact ⟨hs, rfl⟩
    · rfl
  | ite c a b iha ihb =>
    intro s hs
    have h := cond_same hT hU hs c
    simp only [strict, exec]
    rcases hx : evalCond C s (strictC c) with b | e | q | _ <;> rw [hx] at h
    · rw [h.2]
      cases b
      · exact ihb s hs
      · exact iha s hs
    · trivial
    · rw [show evalCond C' (shS p s) c = _ from h]; rfl
    · rw [show evalCond C' (shS p s) c = _ from h]; rfl
  | loop a ih =>
    intro s hs
    simp only [strict, exec, hfuel]
    exact iterate_same ih _ s hs
  | brk => exact fun s hs => ⟨hs, rfl⟩
  | ret e =>
    intro s hs
    simp only [strict, exec]
    exact (he hs e).bind fun y hy => ⟨hy, rfl⟩
  | fail o line =>
    intro s hs
    simp only [strict, exec]
    exact (offTok_same hT hs o).bind fun t _ => trivial
  | scan x lo hi a ih =>
    intro s hs
    cases hi with
    | none =>
      simp only [strict, exec, hfuel]
      refine scanLoop_same ih ?_ _ _ s hs
      exact fun _ _ => rfl
    | some hi =>
      simp only [strict, exec, show (shS p s).env = s.env from rfl]
      split
      · refine scanLoop_same ih ?_ _ _ s hs
        exact fun _ hs => ⟨hs, rfl⟩
      · rfl
      · trivial
      · rfl
      · rfl
  | drain v x a ih =>
    intro s hs
    simp only [strict, exec, show (shS p s).env = s.env from rfl]
    split
    · exact drainLoop_same ih _ { s with env := s.env.set v (.vec []) } hs
    · rfl
  | tryElse x f args h ih =>
    intro s hs
    simp only [strict, exec, evalExp, show (shS p s).env = s.env from rfl, show (shS p s).ps = sh p s.ps from rfl]
    cases evalAtoms s.env args with
    | ok vs =>
      simp only [Out.bind_ok]
      have h := hcall f vs s.ps hs
      rcases hx : C.call f vs s.ps with ⟨v, ps⟩ | e | q | _ <;> rw [hx] at h
      · rw [h.2]; exact ⟨h.1, rfl⟩
      · trivial
      · rw [show C'.call f vs (sh p s.ps) = _ from h]; rfl
      · rw [show C'.call f vs (sh p s.ps) = _ from h]; rfl
    | err e => trivial
    | panic q => rfl
    | timeout => rfl
end

/-- All functions behave alike. -/
theorem callN_same {U : Unicode} {defs : Fn → FunDef} {T1 T2 : List Token} {p L : Nat} (hT : Toks T1 T2 p L)
    (fuel : Nat) : ∀ n, Calls p L (callN U (fun f => strictD (defs f)) T1 fuel n) (callN U defs T2 fuel n)
  | 0 => fun _ _ _ _ => rfl
  | n + 1 => by
    intro f vs ps hps
    have h := exec_same (C := ⟨U, T1, fuel, callN U (fun f => strictD (defs f)) T1 fuel n⟩)
      (C' := ⟨U, T2, fuel, callN U defs T2 fuel n⟩) hT rfl (callN_same hT fuel n) rfl (defs f).body
      ⟨ps, bindParams (defs f).params vs⟩ hps
    simp only [callN, runBody]
    rw [show (strictD (defs f)).body = strict (defs f).body from rfl, show (strictD (defs f)).params = (defs f).params from rfl]
    rw [show (⟨sh p ps, bindParams (defs f).params vs⟩ : St) = shS p ⟨ps, bindParams (defs f).params vs⟩ from rfl]
    rcases hx : exec ⟨U, T1, fuel, callN U (fun f => strictD (defs f)) T1 fuel n⟩ (strict (defs f).body)
      ⟨ps, bindParams (defs f).params vs⟩ with ⟨fl, s'⟩ | e | q | _ <;> rw [hx] at h
    · rw [h.2]
      cases fl with
      | norm => rfl
      | brk => rfl
      | ret v => exact ⟨h.1, rfl⟩
    · trivial
    · rw [show exec _ (defs f).body _ = _ from h]; rfl
    · rw [show exec _ (defs f).body _ = _ from h]; rfl

end Verif.Cut
