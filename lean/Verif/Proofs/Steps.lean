import Verif.Proofs.Cut
import Verif.Proofs.AcceptTop
import Verif.Spec.Steps
/-! Complete statements are parsed independently of what follows (C41). -/
namespace Verif.Cut
open Core Interp Spec
open GI hiding exec

/-- Equality as a relation between runs. -/
def idRel (U : Unicode) (toks : List Token) : Rel where
  U := U
  S := ⟨fun _ => true, fun _ => true, fun _ => true⟩
  toks := toks
  toks' := toks
  RE := Eq
  RS := Eq
  RN := Eq
  tok := by
    rintro s _ rfl n
    cases getToken toks s n with
    | ok t => exact ⟨rfl, rfl, rfl, rfl, fun _ _ => rfl, Iff.rfl, fun _ _ => Iff.rfl, fun _ _ => Iff.rfl, fun m => rfl⟩
    | err x => rfl
    | panic p => rfl
    | timeout => exact OutRel.timeout_left _
  eof := by rintro s _ rfl n; rfl
  next := by rintro s _ rfl; cases nextToken toks s <;> first | rfl | exact OutRel.timeout_left _
  construct := by rintro s _ rfl nt; cases construct U toks s nt <;> first | rfl | exact OutRel.timeout_left _
  adj := by rintro s _ rfl a b a' b' h1 h2 h3 h4; rw [h1] at h3; rw [h2] at h4; cases h3; cases h4; rfl
  empty _ := rfl
  pushNode := by rintro n _ c _ k _ rfl rfl; rfl
  pushVec := by rintro n _ cs cs' k _ rfl h; rw [List.forall₂_eq_eq_eq] at h; rw [h]
  setType := by rintro n _ nt rfl; rfl
  ty := by rintro n _ rfl; rfl
  leftmost := by rintro n _ rfl; rfl
  hasKey := by rintro n _ k rfl _; rfl

theorem okBy_cond (c : Cond) : c.okBy ⟨fun _ => true, fun _ => true, fun _ => true⟩ = true := by
  induction c <;> simp_all [Cond.okBy]

theorem okBy_exp (e : Exp) : e.okBy ⟨fun _ => true, fun _ => true, fun _ => true⟩ = true := by
  cases e <;> simp [Exp.okBy, okBy_cond]

theorem okBy_all (c : Cmd) : c.okBy ⟨fun _ => true, fun _ => true, fun _ => true⟩ = true := by
  induction c <;> simp_all [Cmd.okBy, okBy_cond, okBy_exp]

/-- The result of a call does not depend on the bounds. -/
theorem callN_bounds {U : Unicode} {defs : Fn → FunDef} {toks : List Token} {f : Fn} {vs : List Val} {ps : PS}
    {a a' b b' : Nat} {n n' : Node} {q q' : PS} (hvs : ∀ v ∈ vs, ∃ b, v = .bool b)
    (h : callN U defs toks a b f vs ps = .ok (.node n, q)) (h' : callN U defs toks a' b' f vs ps = .ok (.node n', q')) :
    n = n' ∧ q = q' := by
  have := Rel.callN_rel (idRel U toks) defs (fun f => okBy_all _) a a' b b' f vs vs ps ps (by
    rw [List.forall₂_same]
    intro v hv
    obtain ⟨b, rfl⟩ := hvs v hv
    exact .bool b) rfl
  rw [show (idRel U toks).U = U from rfl, show (idRel U toks).toks = toks from rfl,
    show (idRel U toks).toks' = toks from rfl, h, h'] at this
  obtain ⟨h1, h2⟩ := this
  refine ⟨?_, h2⟩
  cases h1
  assumption

/-- A comment to end the list with. -/
def sentinel : Token := ⟨0, 0, "--".toList⟩

theorem next_nc {T : List Token} (hT : ∀ t ∈ T, t.isComment = false) {s : PS} (hl : s.trail = [])
    (h : s.pos + 1 < T.length) : nextToken T s = .ok ⟨s.pos + 1, [], []⟩ := by
  have ho : ∀ (s : PS), s.pos + 1 < T.length → getOffsetIndex T s 1 = .ok (s.pos + 1) := by
    intro s hlt
    unfold getOffsetIndex
    rw [if_neg (by omega), List.drop_eq_getElem_cons hlt]
    simp [scanFrom, hT _ (List.getElem_mem hlt)]
  unfold nextToken
  rw [ho s h, hl]
  simp only [List.getLast?_nil]
  by_cases h2 : s.pos + 1 + 1 < T.length
  · rw [ho _ h2]
    simp only [tokAt, List.getElem?_eq_getElem h, trailing_self, range, Nat.sub_self, List.range'_zero]
  · have : ∃ e, getOffsetIndex T ⟨s.pos + 1, range (s.pos + 1) (s.pos + 1), []⟩ 1 = .err e := by
      unfold getOffsetIndex
      rw [if_neg (by omega), List.drop_eq_nil_of_le (by show T.length ≤ s.pos + 1 + 1; omega)]
      simp only [scanFrom]
      cases hg : T.getLast? with
      | none => rw [List.getLast?_eq_none_iff] at hg; subst hg; simp at h
      | some t => exact ⟨_, rfl⟩
    obtain ⟨e, he⟩ := this
    rw [he]
    simp [range]

/-- Neither a timeout nor a panic that cannot happen. -/
def Fine {α : Type} (o : Out α) : Prop := o ≠ .timeout ∧ ∀ p, o = .panic p → p = .emptyLiteral

section
variable {G : Tables} (hG : tablesOk G = true) {U : Unicode} (hU : U.Lawful)
  {tab : Fn → List Entry} (top : PlainOk G tab)
  (hE : ∀ f, ∀ e ∈ tab f, checkEntry G tab (Program.defs f) e = true)
  {W : List Token} {s : List Str} (hW : W.map Token.literal = s ++ [";".toList])
  (hnc : ∀ t ∈ W, t.isComment = false ∧ t.literal ≠ [])
  (hap : ∀ (i : Nat) a b, W[i]? = some a → W[i + 1]? = some b → isWordLit a.literal = true →
    touchM.testBit (gcls b.literal) = false → adjacentToks a b = false)
  (hd : Derives [.nt .PlainStep] s)
include hG hU top hE hW hnc hap hd

omit hG hU top hE hd in
theorem window_ok : TokOk (W ++ [sentinel]) := by
  obtain ⟨i, x, rfl⟩ : ∃ i x, W = i ++ [x] := by
    cases hg : W.getLast? with
    | none => rw [List.getLast?_eq_none_iff] at hg; subst hg; simp at hW
    | some x => obtain ⟨i, hi⟩ := List.getLast?_eq_some_iff.1 hg; exact ⟨i, x, hi⟩
  have hx : x.literal = ";".toList := by
    rw [List.map_append] at hW
    have := List.append_inj_right' hW rfl
    simpa using this
  have hsemi : gcls x.literal = Kw.sym_semi.ctorIdx := by rw [hx]; decide +kernel
  refine ⟨⟨i ++ [x], sentinel, rfl, hnc, .inr ⟨by decide, i, x, rfl, hsemi⟩⟩, ?_⟩
  intro k a b ha hb hw hm
  by_cases hk : k + 1 < (i ++ [x]).length
  · rw [List.getElem?_append_left hk] at hb
    rw [List.getElem?_append_left (by omega)] at ha
    exact hap k a b ha hb hw hm
  · have hlt := (List.getElem?_eq_some_iff.1 hb).1
    rw [List.length_append, List.length_singleton] at hlt
    have hk' : k = i.length := by simp at hk hlt; omega
    subst hk'
    have : a = x := by simpa using ha.symm
    subst this
    rw [hx] at hw
    exact absurd hw (by decide)

omit hU top hE hap in
theorem window_view : view (W ++ [sentinel]) 0 = s.map gcls ++ [Kw.sym_semi.ctorIdx] := by
  unfold view
  rw [List.drop_zero, List.filter_append, filter_init hnc, show [sentinel].filter ncb = [] by decide, List.append_nil,
    show (fun t : Token => gcls t.literal) = gcls ∘ Token.literal from rfl, ← List.map_map, hW, List.map_append,
    List.map_singleton, show gcls ";".toList = Kw.sym_semi.ctorIdx by decide +kernel]
/-- One statement: the strict parser succeeds on it alone, and the parser does the same in the longer list. -/
theorem window_call {T2 : List Token} {p fuel depth : Nat}
    (hT : Toks (W ++ [sentinel]) T2 p W.length)
    (hf : Fine (Verif.call U T2 fuel depth .parse_statement [.bool true] ⟨p, [], []⟩)) :
    ∃ v, callN U (fun f => strictD (Program.defs f)) (W ++ [sentinel]) fuel depth .parse_statement [.bool true] ⟨0, [], []⟩ =
        .ok (v, ⟨W.length - 1, [], []⟩) ∧
      Verif.call U T2 fuel depth .parse_statement [.bool true] ⟨p, [], []⟩ = .ok (v, ⟨p + (W.length - 1), [], []⟩) := by
  have ok := window_ok hW hnc hap
  have hpos : 0 < W.length := by
    cases W with
    | nil => simp at hW
    | cons x W => simp
  have hM : M G top.e.pre (s.map gcls ++ [Kw.sym_semi.ctorIdx]) := by
    rw [top.pre]
    refine M_append (X := [_]) (Y := [_]) (derives_sound hG hd (by simp [symOk])) (.T (bit_self _) (by decide) .nil)
  have h1 := callN_sound (TOk_of hG) hU ok (defs := fun f => strictD (Program.defs f)) (tab := tab) fuel
    (fun f e he => by rw [checkEntry_strict]; exact hE f e he) depth .parse_statement top.e top.mem [.bool true] ⟨0, [], []⟩
    (s.map gcls ++ [Kw.sym_semi.ctorIdx]) [] (by rw [top.args]; exact .cons rfl .nil)
    (by rw [List.append_nil]; exact window_view hG hW hnc hd) hM (.inl top.follow)
  have h2 := callN_same (U := U) (defs := Program.defs) hT fuel depth .parse_statement [.bool true] ⟨0, [], []⟩ ⟨hpos, rfl, rfl⟩
  rw [show sh p ⟨0, [], []⟩ = ⟨p, [], []⟩ by simp [sh]] at h2
  rw [show callN U Program.defs T2 fuel depth = Verif.call U T2 fuel depth from rfl] at h2
  cases hx : callN U (fun f => strictD (Program.defs f)) (W ++ [sentinel]) fuel depth .parse_statement [.bool true] ⟨0, [], []⟩ with
  | ok x =>
    obtain ⟨v, q⟩ := x
    rw [hx] at h1 h2
    obtain ⟨⟨hq1, hq2, hq3⟩, h2⟩ := h2
    obtain ⟨pp, hpp, u', h3, h4⟩ := h1
    rw [top.post, List.mem_singleton] at hpp
    subst hpp
    obtain ⟨c, w, rfl, _, _, h5⟩ := M_T h4
    rw [M_nil h5, List.append_nil] at h3
    have hq : q = ⟨W.length - 1, [], []⟩ := by
      obtain ⟨qp, ql, qt⟩ := q
      dsimp only at hq1 hq2 hq3 h3
      have h6 : (view (W ++ [sentinel]) qp).length = W.length - qp := by
        unfold view
        rw [List.length_map, List.drop_append_of_le_length (by omega), List.filter_append,
          show [sentinel].filter ncb = [] by decide, List.append_nil,
          filter_init (fun t ht => hnc t (List.mem_of_mem_drop ht)), List.length_drop]
      rw [h3, List.length_singleton] at h6
      rw [hq2, hq3, show qp = W.length - 1 by omega]
    subst hq
    exact ⟨v, rfl, h2⟩
  | err e => rw [hx] at h1; exact h1.elim
  | panic q =>
    rw [hx] at h1 h2
    exact absurd (hf.2 q h2) h1
  | timeout =>
    rw [hx] at h2
    exact absurd h2 hf.1

/-- One iteration of the loop over the statements. -/
theorem loop_step {T2 : List Token} {p fuel depth n : Nat} {stmts : List Node}
    (hT : Toks (W ++ [sentinel]) T2 p W.length) (hc : ∀ t ∈ T2, t.isComment = false)
    (hf : Fine (parseLoop U T2 fuel depth n ⟨p, [], []⟩ stmts)) :
    ∃ m nd, n = m + 1 ∧
      callN U (fun f => strictD (Program.defs f)) (W ++ [sentinel]) fuel depth .parse_statement [.bool true] ⟨0, [], []⟩ =
        .ok (.node nd, ⟨W.length - 1, [], []⟩) ∧
      parseLoop U T2 fuel depth n ⟨p, [], []⟩ stmts =
        parseLoop U T2 fuel depth m ⟨p + W.length, [], []⟩ (stmts ++ [nd]) := by
  have hpos : 0 < W.length := by
    cases W with
    | nil => simp at hW
    | cons x W => simp
  cases n with
  | zero => exact absurd rfl hf.1
  | succ m =>
    obtain ⟨t2, ht2, _⟩ := hT.nxt
    have hlt2 := (List.getElem?_eq_some_iff.1 ht2).1
    have heof : isEof T2 ⟨p, [], []⟩ 0 = false := by
      simp only [isEof, getOffsetIndex, if_true, decide_eq_false_iff_not]
      omega
    simp only [parseLoop, heof, Bool.false_eq_true, if_false] at hf ⊢
    have hfc : Fine (Verif.call U T2 fuel depth .parse_statement [.bool true] ⟨p, [], []⟩) := by
      constructor
      · intro h; rw [h] at hf; exact hf.1 rfl
      · intro q h; rw [h] at hf; exact hf.2 q rfl
    obtain ⟨v, h1, h2⟩ := window_call hG hU top hE hW hnc hap hd hT hfc
    rw [h2] at hf ⊢
    cases v with
    | node nd =>
      refine ⟨m, nd, rfl, h1, ?_⟩
      dsimp only
      rw [next_nc hc rfl (by dsimp only; omega)]
      dsimp only
      rw [show p + (W.length - 1) + 1 = p + W.length by omega]
    | _ => exact absurd (hf.2 _ rfl) (by decide)
end

/-- Words that touch the next token. -/
def Apart (l : List Token) : Prop :=
  ∀ (i : Nat) a b, l[i]? = some a → l[i + 1]? = some b → isWordLit a.literal = true →
    touchM.testBit (gcls b.literal) = false → adjacentToks a b = false

theorem Apart.left {a b : List Token} (h : Apart (a ++ b)) : Apart a := by
  intro i x y hx hy
  refine h i x y ?_ ?_
  · rw [List.getElem?_append_left (List.getElem?_eq_some_iff.1 hx).1]; exact hx
  · rw [List.getElem?_append_left (List.getElem?_eq_some_iff.1 hy).1]; exact hy

theorem Apart.right {a b : List Token} (h : Apart (a ++ b)) : Apart b := by
  intro i x y hx hy
  refine h (a.length + i) x y ?_ ?_
  · rw [List.getElem?_append_right (by omega)]; simpa using hx
  · rw [List.getElem?_append_right (by omega)]
    rw [show a.length + i + 1 - a.length = i + 1 by omega]; exact hy

theorem toks_of {W P R : List Token} (hnc : ∀ t ∈ W, t.isComment = false) (hR : R ≠ []) (hRc : ∀ t ∈ R, t.isComment = false) :
    Toks (W ++ [sentinel]) (P ++ (W ++ R)) P.length W.length where
  tok i hi := by
    refine ⟨W[i], ?_, ?_, hnc _ (List.getElem_mem hi)⟩
    · rw [List.getElem?_append_left hi, List.getElem?_eq_getElem hi]
    · rw [List.getElem?_append_right (by omega), Nat.add_sub_cancel_left, List.getElem?_append_left hi,
        List.getElem?_eq_getElem hi]
  len := by simp
  com t ht := by
    rw [List.getElem?_append_right (by omega), Nat.sub_self] at ht
    cases ht
    decide
  nxt := by
    cases R with
    | nil => exact absurd rfl hR
    | cons r R =>
      refine ⟨r, ?_, hRc r (by simp)⟩
      rw [List.getElem?_append_right (by omega), Nat.add_sub_cancel_left, List.getElem?_append_right (by omega), Nat.sub_self]
      rfl

section
variable {G : Tables} (hG : tablesOk G = true) {U : Unicode} (hU : U.Lawful)
  {tab : Fn → List Entry} (top : PlainOk G tab)
  (hE : ∀ f, ∀ e ∈ tab f, checkEntry G tab (Program.defs f) e = true)
include hG hU top hE

/-- The loop over complete statements, in two lists at once. -/
theorem loop_steps {k : Nat} {ls : List Str} (hs : IsSteps k ls) : ∀ {xs Pa Ra Pb Rb : List Token} {fa da na fb db nb : Nat}
    {sa sb : List Node}, xs.map Token.literal = ls → (∀ t ∈ xs, t.isComment = false ∧ t.literal ≠ []) → Apart xs →
    Ra ≠ [] → Rb ≠ [] → (∀ t ∈ Pa ++ (xs ++ Ra), t.isComment = false) → (∀ t ∈ Pb ++ (xs ++ Rb), t.isComment = false) →
    Fine (parseLoop U (Pa ++ (xs ++ Ra)) fa da na ⟨Pa.length, [], []⟩ sa) →
    Fine (parseLoop U (Pb ++ (xs ++ Rb)) fb db nb ⟨Pb.length, [], []⟩ sb) →
    ∃ nds ma mb, nds.length = k ∧
      parseLoop U (Pa ++ (xs ++ Ra)) fa da na ⟨Pa.length, [], []⟩ sa =
        parseLoop U (Pa ++ (xs ++ Ra)) fa da ma ⟨Pa.length + xs.length, [], []⟩ (sa ++ nds) ∧
      parseLoop U (Pb ++ (xs ++ Rb)) fb db nb ⟨Pb.length, [], []⟩ sb =
        parseLoop U (Pb ++ (xs ++ Rb)) fb db mb ⟨Pb.length + xs.length, [], []⟩ (sb ++ nds) := by
  induction hs with
  | nil =>
    intro xs Pa Ra Pb Rb fa da na fb db nb sa sb hl _ _ _ _ _ _ _ _
    rw [List.map_eq_nil_iff] at hl
    subst hl
    exact ⟨[], na, nb, rfl, by simp, by simp⟩
  | @cons k s rest h hr ih =>
    intro xs Pa Ra Pb Rb fa da na fb db nb sa sb hl hx hap hRa hRb hca hcb hfa hfb
    obtain ⟨W, xr, rfl, hW, hxr⟩ : ∃ W xr, xs = W ++ xr ∧ W.map Token.literal = s ++ [";".toList] ∧
        xr.map Token.literal = rest := by
      rw [show s ++ ";".toList :: rest = (s ++ [";".toList]) ++ rest by simp, List.map_eq_append_iff] at hl
      obtain ⟨W, xr, h1, h2, h3⟩ := hl
      exact ⟨W, xr, h1, h2, h3⟩
    have hWc : ∀ t ∈ W, t.isComment = false ∧ t.literal ≠ [] := fun t ht => hx t (by simp [ht])
    have ha : Pa ++ (W ++ xr ++ Ra) = Pa ++ (W ++ (xr ++ Ra)) := by simp
    have hb : Pb ++ (W ++ xr ++ Rb) = Pb ++ (W ++ (xr ++ Rb)) := by simp
    rw [ha] at hfa hca ⊢
    rw [hb] at hfb hcb ⊢
    obtain ⟨ma, nda, _, h1, h2⟩ := loop_step hG hU top hE hW hWc hap.left h
      (toks_of (P := Pa) (R := xr ++ Ra) (fun t ht => (hWc t ht).1) (by simp [hRa]) (fun t ht => hca t (by
        rw [List.mem_append, List.mem_append]; exact .inr (.inr ht)))) hca hfa
    obtain ⟨mb, ndb, _, h3, h4⟩ := loop_step hG hU top hE hW hWc hap.left h
      (toks_of (P := Pb) (R := xr ++ Rb) (fun t ht => (hWc t ht).1) (by simp [hRb]) (fun t ht => hcb t (by
        rw [List.mem_append, List.mem_append]; exact .inr (.inr ht)))) hcb hfb
    obtain ⟨rfl, _⟩ := callN_bounds (fun v hv => by rw [List.mem_singleton] at hv; exact ⟨true, hv⟩) h1 h3
    rw [h2] at hfa ⊢
    rw [h4] at hfb ⊢
    have ha' : Pa ++ (W ++ (xr ++ Ra)) = (Pa ++ W) ++ (xr ++ Ra) := by simp
    have hb' : Pb ++ (W ++ (xr ++ Rb)) = (Pb ++ W) ++ (xr ++ Rb) := by simp
    rw [ha', ← List.length_append] at hfa
    rw [ha', ← List.length_append (as := Pa) (bs := W)]
    rw [hb', ← List.length_append] at hfb
    rw [hb', ← List.length_append (as := Pb) (bs := W)]
    rw [ha'] at hca
    rw [hb'] at hcb
    obtain ⟨nds, ma', mb', h5, h6, h7⟩ := ih hxr (fun t ht => hx t (by simp [ht])) hap.right hRa hRb hca hcb hfa hfb
    refine ⟨nda :: nds, ma', mb', by simp [h5], ?_, ?_⟩
    · rw [h6]; simp [Nat.add_assoc]
    · rw [h7]; simp [Nat.add_assoc]
end

/-! The rest of the list -/

theorem scanFrom_shift (off p : Nat) : ∀ (l : List Token) (cnt idx : Nat),
    scanFrom off cnt (p + idx) l = (scanFrom off cnt idx l).map (p + ·)
  | [], _, _ => rfl
  | t :: l, cnt, idx => by
    simp only [scanFrom]
    split
    · exact scanFrom_shift off p l cnt (idx + 1)
    · split
      · rfl
      · exact scanFrom_shift off p l (cnt + 1) (idx + 1)

section
variable {P ys : List Token} (hy : ys ≠ [])
include hy

theorem offset_shift {s s' : PS} (h : s.pos = P.length + s'.pos) (n : Nat) :
    getOffsetIndex (P ++ ys) s n = (getOffsetIndex ys s' n >>= fun i => .ok (P.length + i)) := by
  unfold getOffsetIndex
  by_cases h0 : n = 0
  · rw [if_pos h0, if_pos h0, h]; rfl
  · rw [if_neg h0, if_neg h0, show (P ++ ys).drop (s.pos + 1) = ys.drop (s'.pos + 1) by
      rw [h, Nat.add_assoc, ← List.drop_drop, List.drop_left], show s.pos + 1 = P.length + (s'.pos + 1) by omega,
      scanFrom_shift]
    cases scanFrom n 0 (s'.pos + 1) (ys.drop (s'.pos + 1)) with
    | some i => rfl
    | none =>
      simp only [Option.map_none]
      rw [List.getLast?_append]
      cases hg : ys.getLast? with
      | none => exact absurd (List.getLast?_eq_none_iff.1 hg) hy
      | some t => rfl

theorem token_shift {s s' : PS} (h : s.pos = P.length + s'.pos) (n : Nat) :
    getToken (P ++ ys) s n = getToken ys s' n := by
  unfold getToken
  rw [offset_shift hy h n]
  cases getOffsetIndex ys s' n with
  | ok i =>
    show tokAt (P ++ ys) (P.length + i) = tokAt ys i
    unfold tokAt
    rw [List.getElem?_append_right (by omega), Nat.add_sub_cancel_left]
  | _ => rfl

theorem eof_shift {s s' : PS} (h : s.pos = P.length + s'.pos) (n : Nat) :
    isEof (P ++ ys) s n = isEof ys s' n := by
  have h1 : 0 < ys.length := List.length_pos_iff.2 hy
  unfold isEof
  rw [offset_shift hy h n]
  cases getOffsetIndex ys s' n with
  | ok i =>
    show decide ((P ++ ys).length - 1 ≤ P.length + i) = decide (ys.length - 1 ≤ i)
    rw [List.length_append]
    congr 1
    apply propext
    omega
  | _ => rfl

/-- The state at the same place of the rest. -/
structure Shift (P : List Token) (s s' : PS) : Prop where
  eq : s = ⟨P.length + s'.pos, [], []⟩
  lead : s'.lead = []
  trail : s'.trail = []

omit hy in
theorem Shift.pos {P : List Token} {s s' : PS} (h : Shift P s s') : s.pos = P.length + s'.pos := by rw [h.eq]

/-- Two runs, on a list and on a longer one. -/
def shiftRel (U : Unicode) (hc : ∀ t ∈ P ++ ys, t.isComment = false) : Rel where
  U := U
  S := ⟨fun _ => true, fun _ => true, fun _ => true⟩
  toks := P ++ ys
  toks' := ys
  RE := Eq
  RS := Shift P
  RN := Eq
  tok := by
    intro s s' h n
    rw [token_shift hy h.pos n]
    cases getToken ys s' n with
    | ok t => exact ⟨rfl, rfl, rfl, rfl, fun _ _ => rfl, Iff.rfl, fun _ _ => Iff.rfl, fun _ _ => Iff.rfl, fun m => rfl⟩
    | err x => rfl
    | panic p => rfl
    | timeout => exact OutRel.timeout_left _
  eof s s' h n := eof_shift hy h.pos n
  next := by
    intro s s' h
    by_cases hlt : s'.pos + 1 < ys.length
    · rw [next_nc hc (by rw [h.eq]) (by rw [h.pos, List.length_append]; omega),
        next_nc (fun t ht => hc t (by simp [ht])) h.trail hlt]
      exact ⟨by rw [h.pos, Nat.add_assoc], rfl, rfl⟩
    · have h1 : ∃ e, getOffsetIndex ys s' 1 = .err e := by
        unfold getOffsetIndex
        rw [if_neg (by omega), List.drop_eq_nil_of_le (by omega)]
        simp only [scanFrom]
        cases hg : ys.getLast? with
        | none => exact absurd (List.getLast?_eq_none_iff.1 hg) hy
        | some t => exact ⟨_, rfl⟩
      obtain ⟨e, h1⟩ := h1
      have h2 : getOffsetIndex (P ++ ys) s 1 = .err e := by rw [offset_shift hy h.pos, h1]; rfl
      unfold nextToken
      rw [h1, h2]
      rfl
  construct := by
    intro s s' h nt
    have h1 : ∀ n, attachComments (P ++ ys) s n = attachComments ys s' n := by
      intro n
      unfold attachComments
      rw [h.lead, h.trail, h.eq]
      rfl
    have h2 : ∀ t, classify U (P ++ ys) s t = classify U ys s' t := by
      intro t
      unfold classify
      rw [token_shift hy h.pos 1]
    have h3 : Core.construct U (P ++ ys) s nt = Core.construct U ys s' nt := by
      unfold Core.construct
      rw [token_shift hy h.pos 0]
      simp only [h1, h2]
    rw [h3]
    cases Core.construct U ys s' nt <;> first | rfl | exact OutRel.timeout_left _
  adj := by
    intro s s' h a b a' b' h1 h2 h3 h4
    rw [token_shift hy h.pos] at h1 h2
    rw [h1] at h3; rw [h2] at h4
    cases h3; cases h4; rfl
  empty _ := rfl
  pushNode := by rintro n _ c _ k _ rfl rfl; rfl
  pushVec := by rintro n _ cs cs' k _ rfl h; rw [List.forall₂_eq_eq_eq] at h; rw [h]
  setType := by rintro n _ nt rfl; rfl
  ty := by rintro n _ rfl; rfl
  leftmost := by rintro n _ rfl; rfl
  hasKey := by rintro n _ k rfl _; rfl
end

/-- The statements that have been read are only passed on. -/
theorem parseLoop_acc (U : Unicode) (toks : List Token) (fuel depth : Nat) : ∀ (n : Nat) (ps : PS) (a b : List Node),
    parseLoop U toks fuel depth n ps (a ++ b) = (parseLoop U toks fuel depth n ps b >>= fun ns => .ok (a ++ ns))
  | 0, _, _, _ => rfl
  | n + 1, ps, a, b => by
    simp only [parseLoop]
    split
    · cases Core.construct U toks ps .EOF with
      | ok nd => show Out.ok _ = Out.ok _; rw [List.append_assoc]
      | _ => rfl
    · cases Verif.call U toks fuel depth .parse_statement [.bool true] ps with
      | ok x =>
        obtain ⟨v, q⟩ := x
        cases v with
        | node nd =>
          dsimp only
          cases nextToken toks q with
          | ok q' => dsimp only; rw [List.append_assoc]; exact parseLoop_acc U toks fuel depth n q' a (b ++ [nd])
          | _ => rfl
        | _ => rfl
      | _ => rfl

theorem new_nc {T : List Token} (hc : ∀ t ∈ T, t.isComment = false) (hne : T ≠ []) : Core.new T = .ok ⟨0, [], []⟩ := by
  cases T with
  | nil => exact absurd rfl hne
  | cons t T =>
    have h0 : Core.leadingComments (t :: T) = 0 := by simp [Core.leadingComments, hc t (by simp)]
    unfold Core.new
    simp only [h0, List.getElem?_cons_zero, range, Nat.sub_self, List.range'_zero]
    split
    · rfl
    · cases T with
      | nil => rfl
      | cons u T => simp [trailingNew, hc u (by simp)]

section
variable {G : Tables} (hG : tablesOk G = true) {U : Unicode} (hU : U.Lawful)
  {tab : Fn → List Entry} (top : PlainOk G tab)
  (hE : ∀ f, ∀ e ∈ tab f, checkEntry G tab (Program.defs f) e = true)
include hG hU top hE

/-- A list of tokens without comments that begins with complete statements. -/
theorem steps_nc {k : Nat} {ls : List Str} (hs : IsSteps k ls) {xs ys : List Token}
    (hl : xs.map Token.literal = ls) (hx : ∀ t ∈ xs, t.isComment = false ∧ t.literal ≠ []) (hap : Apart xs)
    (hyc : ∀ t ∈ ys, t.isComment = false) {body : List Token} (hy : ys = body ++ [Token.eof]) :
    ∃ nds, nds.length = k ∧ parseTokens U (xs ++ [Token.eof]) = .ok (nds ++ [Node.empty .EOF]) ∧
      parseTokens U (xs ++ ys) = (parseTokens U ys >>= fun ms => .ok (nds ++ ms)) := by
  have hfine : ∀ b : List Token, Fine (parseTokens U (b ++ [Token.eof])) := by
    intro b
    refine ⟨parseTokensWith_ne_timeout U _ _ _ (by omega) (by omega), fun p hp => ?_⟩
    have := AI.parseTokens_sound (U := U) hU (AI.ends_eof b)
    rw [hp] at this
    exact this
  have hne : ys ≠ [] := by rw [hy]; simp
  have hca : ∀ t ∈ xs ++ [Token.eof], t.isComment = false := by
    intro t ht
    rcases List.mem_append.1 ht with h | h
    · exact (hx t h).1
    · rw [List.mem_singleton.1 h]; decide
  have hcb : ∀ t ∈ xs ++ ys, t.isComment = false := by
    intro t ht
    rcases List.mem_append.1 ht with h | h
    · exact (hx t h).1
    · exact hyc t h
  have hpt : ∀ T : List Token, T ≠ [] → (∀ t ∈ T, t.isComment = false) →
      parseTokens U T = parseLoop U T (T.length + 1) (4 * T.length) (T.length + 1) ⟨0, [], []⟩ [] := by
    intro T h1 h2
    unfold parseTokens parseTokensWith
    rw [new_nc h2 h1]
    rfl
  have hfa := hfine xs
  have hfb := hfine (xs ++ body)
  rw [List.append_assoc, ← hy] at hfb
  rw [hpt _ (by simp) hca] at hfa ⊢
  rw [hpt _ (by simp [hne]) hcb] at hfb ⊢
  obtain ⟨nds, ma, mb, h1, h2, h3⟩ := loop_steps hG hU top hE hs (Pa := []) (Pb := []) hl hx hap (by simp) hne hca hcb hfa hfb
  simp only [List.nil_append, List.length_nil, Nat.zero_add] at h2 h3
  refine ⟨nds, h1, ?_, ?_⟩
  · rw [h2] at hfa ⊢
    cases ma with
    | zero => exact absurd rfl hfa.1
    | succ m =>
      have h4 : isEof (xs ++ [Token.eof]) ⟨xs.length, [], []⟩ 0 = true := by
        simp [isEof, getOffsetIndex]
      simp only [parseLoop, h4, if_true]
      have h5 : Core.construct U (xs ++ [Token.eof]) ⟨xs.length, [], []⟩ .EOF = .ok (Node.empty .EOF) := by
        simp [Core.construct, getToken, getOffsetIndex, tokAt, attachComments, commentNodes]
      rw [h5]
      rfl
  · have h6 := Rel.parseLoop_rel (shiftRel (P := xs) hne U hcb) (fun f => okBy_all _) ((xs ++ ys).length + 1) (ys.length + 1)
      (4 * (xs ++ ys).length) (4 * ys.length) mb (ys.length + 1) ⟨xs.length, [], []⟩ ⟨0, [], []⟩ [] []
      ⟨by simp, rfl, rfl⟩ .nil
    rw [show (shiftRel (P := xs) hne U hcb).U = U from rfl, show (shiftRel (P := xs) hne U hcb).toks = xs ++ ys from rfl,
      show (shiftRel (P := xs) hne U hcb).toks' = ys from rfl, ← hpt ys hne hyc] at h6
    rw [h3] at hfb ⊢
    have h7 := parseLoop_acc U (xs ++ ys) ((xs ++ ys).length + 1) (4 * (xs ++ ys).length) mb ⟨xs.length, [], []⟩ nds []
    rw [List.append_nil] at h7
    have hfy := (hfine body).1
    rw [← hy] at hfy
    rw [h7] at hfb ⊢
    cases ha : parseLoop U (xs ++ ys) ((xs ++ ys).length + 1) (4 * (xs ++ ys).length) mb ⟨xs.length, [], []⟩ [] with
    | ok ns =>
      rw [ha] at h6
      cases hb : parseTokens U ys with
      | ok ms => rw [hb] at h6; rw [show ns = ms from by rw [← List.forall₂_eq_eq_eq (α := Node)]; exact h6]
      | timeout => exact absurd hb hfy
      | _ => rw [hb] at h6; exact h6.elim
    | err e =>
      rw [ha] at h6
      cases hb : parseTokens U ys with
      | err e' => rw [hb] at h6; rw [show e = e' from h6]
      | timeout => exact absurd hb hfy
      | _ => rw [hb] at h6; exact h6.elim
    | panic q =>
      rw [ha] at h6
      cases hb : parseTokens U ys with
      | panic q' => rw [hb] at h6; rw [show q = q' from h6]
      | timeout => exact absurd hb hfy
      | _ => rw [hb] at h6; exact h6.elim
    | timeout => rw [ha] at hfb; exact absurd rfl hfb.1

/-- The same in the presence of comments. -/
theorem steps_sound {k : Nat} {xs ys : List Token} (hs : IsSteps k (significant xs))
    (hx : ∀ t ∈ xs, t.literal ≠ []) (ha : WordsApart xs) {body : List Token} (hy : ys = body ++ [Token.eof]) :
    ∃ stmts e, stmts.length = k ∧ parseTokens U (xs ++ [Token.eof]) = .ok (stmts ++ [e]) ∧
      match parseTokens U ys with
      | .ok ms => ∃ ns, parseTokens U (xs ++ ys) = .ok ns ∧ ns.map stripComments = (stmts ++ ms).map stripComments
      | .err e => parseTokens U (xs ++ ys) = .err e
      | .panic p => parseTokens U (xs ++ ys) = .panic p
      | .timeout => False := by
  have hsig : significant xs = (xs.filter nc).map Token.literal := by
    unfold significant
    congr 1
    apply List.filter_congr
    intro t ht
    have := hx t ht
    cases hl : t.literal with
    | nil => exact absurd hl this
    | cons c cs => simp [nc]
  have hap : Apart (xs.filter nc) := by
    intro n a b h1 h2 hw hm
    obtain ⟨i, j, h3, h4, h5⟩ := filter_succ h1 h2
    by_contra hc
    have ht : Touches a b := by
      have : Interp.adjacentToks a b = true := by simpa using hc
      simpa [Interp.adjacentToks, Touches] using this
    rcases ha i j a b h3 h4 h5 ((isWordLit_iff _).1 hw) ht with h | h
    · have := (List.mem_filter.1 (List.mem_of_getElem? h2)).2
      simp [nc, h] at this
    · rw [mayTouch_cls h] at hm; simp at hm
  have hec : Token.eof.isComment = false := by decide
  have he : [Token.eof].filter nc = [Token.eof] := by decide
  have hnt : ∀ T : List Token, parseTokens U T ≠ .timeout := fun T =>
    parseTokensWith_ne_timeout U _ _ _ (by omega) (by omega)
  obtain ⟨nds, h1, h2, h3⟩ := steps_nc hG hU top hE hs (xs := xs.filter nc) (ys := ys.filter nc) hsig.symm
    (fun t ht => ⟨by simpa [nc] using (List.mem_filter.1 ht).2, hx t (List.mem_filter.1 ht).1⟩) hap
    (fun t ht => by simpa [nc] using (List.mem_filter.1 ht).2) (body := body.filter nc)
    (by rw [hy, List.filter_append, he])
  have s1 := strip_parse (toks := xs ++ [Token.eof]) (e := Token.eof) (by simp) hec U
  have s2 := strip_parse (toks := xs ++ ys) (e := Token.eof) (by simp [hy]) hec U
  have s3 := strip_parse (toks := ys) (e := Token.eof) (by simp [hy]) hec U
  rw [List.filter_append, he, h2] at s1
  rw [List.filter_append, h3] at s2
  cases ha : parseTokens U (xs ++ [Token.eof]) with
  | ok ss =>
    rw [ha] at s1
    have s1 : nds ++ [Node.empty .EOF] = ss.map stripComments := s1
    obtain ⟨stmts, l, rfl, e1, e2⟩ := List.map_eq_append_iff.1 s1.symm
    obtain ⟨e, rfl, _⟩ : ∃ e, l = [e] ∧ True := by
      cases l with
      | nil => simp at e2
      | cons e l => cases l with
        | nil => exact ⟨e, rfl, trivial⟩
        | cons => simp at e2
    refine ⟨stmts, e, by rw [← h1, ← e1, List.length_map], rfl, ?_⟩
    cases hb : parseTokens U ys with
    | timeout => exact absurd hb (hnt ys)
    | ok ms =>
      rw [hb] at s3
      cases hc : parseTokens U (ys.filter nc) with
      | timeout => exact absurd hc (hnt _)
      | ok ms' =>
        rw [hc] at s2 s3
        cases hd : parseTokens U (xs ++ ys) with
        | timeout => exact absurd hd (hnt _)
        | ok ns =>
          rw [hd] at s2
          have s2 : nds ++ ms' = ns.map stripComments := s2
          have s3 : ms' = ms.map stripComments := s3
          exact ⟨ns, rfl, by rw [← s2, List.map_append, e1, s3]⟩
        | _ => rw [hd] at s2; exact s2.elim
      | _ => rw [hc] at s3; exact s3.elim
    | err x =>
      rw [hb] at s3
      cases hc : parseTokens U (ys.filter nc) with
      | timeout => exact absurd hc (hnt _)
      | err x' =>
        rw [hc] at s2 s3
        cases hd : parseTokens U (xs ++ ys) with
        | timeout => exact absurd hd (hnt _)
        | err y => rw [hd] at s2; rw [show y = x' from s2, ← show x = x' from s3]
        | _ => rw [hd] at s2; exact s2.elim
      | _ => rw [hc] at s3; exact s3.elim
    | panic x =>
      rw [hb] at s3
      cases hc : parseTokens U (ys.filter nc) with
      | timeout => exact absurd hc (hnt _)
      | panic x' =>
        rw [hc] at s2 s3
        cases hd : parseTokens U (xs ++ ys) with
        | timeout => exact absurd hd (hnt _)
        | panic y => rw [hd] at s2; rw [show y = x' from s2, ← show x = x' from s3]
        | _ => rw [hd] at s2; exact s2.elim
      | _ => rw [hc] at s3; exact s3.elim
  | timeout => exact absurd ha (hnt _)
  | _ => rw [ha] at s1; exact s1.elim
end
end Verif.Cut
