import Verif.Proofs.OrderCmd
/-! Soundness of the source order analysis: functions. -/
namespace Verif.OI
open Core Spec Interp

variable {ru : Rules} {toks : List Token} {st ls te : Nat} {AL AR : List Token} {a b : OState} {B : Bools}
  {val : Var → Val}

/-! ### Results -/

theorem leftAlts_map (as : Alts) (g : NodeType × AI.Mask → AI.Mask) :
    leftAlts (as.map fun p => (p.1, p.2, g p)) = as := by
  induction as with
  | nil => rfl
  | cons p r ih =>
    rw [List.map_cons, leftAlts, ih]

theorem rightAlts_map (as : Alts) (g : NodeType × AI.Mask → AI.Mask) :
    rightAlts (as.map fun p => (p.1, g p, p.2)) = as := by
  induction as with
  | nil => rfl
  | cons p r ih =>
    rw [List.map_cons, rightAlts, ih]

theorem slotsOf_rightAlts {ty : NodeType} (g : NodeType → AI.Mask) : ∀ {as : Alts} {m : AI.Mask},
    slotsOf ty as = some m → slotsOf ty (rightAlts (as.map fun p => (p.1, p.2, g p.1))) = some (g ty)
  | [], _, h => by cases h
  | (t, m') :: r, m, h => by
    rw [slotsOf_cons] at h
    rw [List.map_cons, rightAlts, slotsOf_cons]
    split at h
    · next ht => rw [if_pos ht, ht]
    · next ht => rw [if_neg ht]; exact slotsOf_rightAlts g h

theorem slotsOf_leftAlts {ty : NodeType} (g : NodeType → AI.Mask) : ∀ {as : Alts} {m : AI.Mask},
    slotsOf ty as = some m → slotsOf ty (leftAlts (as.map fun p => (p.1, g p.1, p.2))) = some (g ty)
  | [], _, h => by cases h
  | (t, m') :: r, m, h => by
    rw [slotsOf_cons] at h
    rw [List.map_cons, leftAlts, slotsOf_cons]
    split at h
    · next ht => rw [if_pos ht, ht]
    · next ht => rw [if_neg ht]; exact slotsOf_leftAlts g h

theorem NodeSegs.addNil {n : Node} {gs : List DP} (h : NodeSegs ru n gs) {as : Alts} {m : AI.Mask}
    (hs : slotsOf n.ty as = some m) : NodeSegs ru n ((.node as, []) :: gs) where
  keys := h.keys
  perm := by rw [List.flatMap_cons, List.nil_append]; exact h.perm
  held := by rw [List.flatMap_cons, List.nil_append]; exact h.held
  segs := by
    intro g hg
    rcases List.mem_cons.1 hg with rfl | hg
    · exact ⟨as, m, rfl, hs, by intro p hp; (cases hp), List.Pairwise.nil⟩
    · exact h.segs g hg

theorem of_le_one {x : Var} {l : List G} (h : count x (l.map G.seg) ≤ 1) :
    (find x (l.map G.seg) = none ∧ of x l = []) ∨
      ∃ t ∈ l, find x (l.map G.seg) = some t.d ∧ of x l = [(t.d, t.ps)] := by
  rcases Nat.eq_zero_or_pos (count x (l.map G.seg)) with h0 | h0
  · have := noOwn_count h0
    exact .inl ⟨find_none this, of_none this⟩
  · obtain ⟨l1, t, l2, rfl, h2, h3, h4⟩ := split_one (x := x) (l := l) (by omega)
    refine .inr ⟨t, by simp, ?_, ?_⟩
    · rw [find_mid]
      all_goals assumption
    · rw [of_append, of_none, of, if_pos, of_none]
      all_goals first | assumption | rfl

theorem word_mem_sublist {t : G} {l : List G} (h : t ∈ l) : (word t.ps).Sublist (words l) := by
  obtain ⟨l1, l2, rfl⟩ := List.append_of_mem h
  rw [words_append, words_cons]
  exact (List.sublist_append_left _ _).trans (List.sublist_append_right _ _)

theorem resultOf_sound {W : List Token} {gl gr : List G} (h : Ghost ru toks st AL AR val ls te a gl gr)
    (hW : (words gr).Sublist W) {r : Res} (hr : resultOf a = .ok r) : ResOk ru AL W r (val TMP) := by
  unfold resultOf at hr
  split at hr
  · next he =>
    cases hr
    rw [h.em _ _ he]
    exact ⟨[], [], rfl, ⟨[], .nil, rfl⟩, List.nil_sublist _⟩
  · next t he =>
    cases hr
    rw [h.em _ _ he]
    refine ⟨Node.empty t, [], [], rfl, ?_, List.nil_sublist _, List.nil_sublist _⟩
    have hs : slotsOf (Node.empty t).ty [(t, 0)] = some 0 := by
      rw [slotsOf_cons]
      exact if_pos rfl
    exact ((nodeSegs_empty t).addNil hs).addNil hs
  · split at hr
    · next hc =>
      rw [Bool.and_eq_true] at hc
      have hv := h.vars TMP
      rw [of_append] at hv
      have hc1 := of_le_one (x := TMP) (l := gl) (by rw [h.segl]; exact Nat.le_of_ble_eq_true hc.1)
      have hc2 := of_le_one (x := TMP) (l := gr) (by rw [h.segr]; exact Nat.le_of_ble_eq_true hc.2)
      rw [h.segl] at hc1
      rw [h.segr] at hc2
      split at hr
      · next as bs hl hr' =>
        cases hr
        rcases hc1 with ⟨h1, _⟩ | ⟨t, ht, h1, h2⟩
        · rw [hl] at h1; cases h1
        rcases hc2 with ⟨h3, _⟩ | ⟨u, hu, h3, h4⟩
        · rw [hr'] at h3; cases h3
        rw [hl] at h1
        rw [hr'] at h3
        injection h1 with h1
        injection h3 with h3
        rw [h2, h4, ← h1, ← h3] at hv
        obtain ⟨n, _, hn, hs, _⟩ := hv.nodeSegs List.mem_cons_self
        rw [hn]
        refine ⟨n, t.ps, u.ps, rfl, ?_, (word_mem_sublist ht).trans h.wl, (word_mem_sublist hu).trans hW⟩
        obtain ⟨_, m, e1, e2, e3, e4⟩ := hs.segs _ List.mem_cons_self
        obtain ⟨_, m', f1, f2, f3, f4⟩ := hs.segs _ (List.mem_cons_of_mem _ List.mem_cons_self)
        cases e1
        cases f1
        rw [leftAlts_map as fun p => (slotsOf p.1 bs).getD 0]
        refine ⟨hs.keys, hs.perm, hs.held, ?_⟩
        intro g hg
        rcases List.mem_cons.1 hg with rfl | hg
        · exact ⟨as, m, rfl, e2, e3, e4⟩
        · rw [List.mem_singleton.1 hg]
          refine ⟨_, m', rfl, ?_, f3, f4⟩
          rw [slotsOf_rightAlts (fun ty => (slotsOf ty bs).getD 0) e2]
          rw [f2]
          rfl
      · next as hl hr' =>
        cases hr
        rcases hc1 with ⟨h1, _⟩ | ⟨t, ht, h1, h2⟩
        · rw [hl] at h1; cases h1
        rcases hc2 with ⟨_, h4⟩ | ⟨u, hu, h3, h4⟩
        · rw [hl] at h1
          injection h1 with h1
          rw [h2, h4, ← h1, List.append_nil] at hv
          obtain ⟨n, _, hn, hs, _⟩ := hv.nodeSegs List.mem_cons_self
          rw [hn]
          refine ⟨n, t.ps, [], rfl, ?_, (word_mem_sublist ht).trans h.wl, List.nil_sublist _⟩
          obtain ⟨_, m, e1, e2, e3, e4⟩ := hs.segs _ List.mem_cons_self
          cases e1
          rw [leftAlts_map as fun _ => 0]
          exact (hs.addNil (slotsOf_rightAlts (fun _ => 0) e2)).of_perm (.swap _ _ _)
        · rw [hr'] at h3; cases h3
      · next bs hl hr' =>
        cases hr
        rcases hc2 with ⟨h1, _⟩ | ⟨t, ht, h1, h2⟩
        · rw [hr'] at h1; cases h1
        rcases hc1 with ⟨_, h4⟩ | ⟨u, hu, h3, h4⟩
        · rw [hr'] at h1
          injection h1 with h1
          rw [h2, h4, ← h1, List.nil_append] at hv
          obtain ⟨n, _, hn, hs, _⟩ := hv.nodeSegs List.mem_cons_self
          rw [hn]
          refine ⟨n, [], t.ps, rfl, ?_, List.nil_sublist _, (word_mem_sublist ht).trans hW⟩
          obtain ⟨_, m, e1, e2, e3, e4⟩ := hs.segs _ List.mem_cons_self
          cases e1
          rw [rightAlts_map bs fun _ => 0]
          exact hs.addNil (slotsOf_leftAlts (fun _ => 0) e2)
        · rw [hl] at h3; cases h3
      · next o as hl hr' =>
        cases hr
        rcases hc2 with ⟨h1, _⟩ | ⟨t, ht, h1, h2⟩
        · rw [hr'] at h1; cases h1
        rcases hc1 with ⟨_, h4⟩ | ⟨u, hu, h3, h4⟩
        · rw [hr'] at h1
          injection h1 with h1
          rw [h2, h4, ← h1, List.nil_append] at hv
          cases hw : val TMP with
          | vec ns =>
            rw [hw] at hv
            cases hv with
            | vec h5 _ => exact ⟨ns, _, rfl, h5, (word_mem_sublist ht).trans hW⟩
          | node n =>
            rw [hw] at hv
            cases hv with
            | node h5 =>
              obtain ⟨_, _, h6, _⟩ := h5.segs _ List.mem_cons_self
              cases h6
          | _ => rw [hw] at hv; cases hv
        · rw [hl] at h3; cases h3
      · cases hr
    · cases hr

theorem resLe_sound {W : List Token} {r r' : Res} {v : Val} (h : ResOk ru AL W r v) (hle : resLe r r' = true) :
    ResOk ru AL W r' v := by
  unfold resLe at hle
  split at hle
  · rw [Bool.and_eq_true] at hle
    obtain ⟨n, PL, PR, rfl, h1, h2, h3⟩ := h
    refine ⟨n, PL, PR, rfl, ?_, h2, h3⟩
    exact (((h1.mono1 hle.1).of_perm (.swap _ _ _)).mono1 hle.2).of_perm (.swap _ _ _)
  · obtain ⟨ns, w, rfl, h1, h2⟩ := h
    exact ⟨ns, w, rfl, h1.any, h2⟩
  · obtain ⟨ns, w, rfl, h1, h2⟩ := h
    exact ⟨ns, w, rfl, h1.mono hle, h2⟩
  · cases hle

/-! ### Start -/

theorem boolOf_start_mem {x : Var} {b : Bool} : ∀ {xs : List Var} {bs : List (Option Bool)},
    boolOf x (startBools xs bs) = some b → x ∈ xs
  | [], bs, h => by cases bs <;> cases h
  | y :: xs, [], h => by cases h
  | y :: xs, none :: bs, h => List.mem_cons_of_mem _ (boolOf_start_mem (bs := bs) h)
  | y :: xs, some c :: bs, h => by
    rw [startBools, boolOf] at h
    split at h
    · next hb => rw [← beq_iff.1 hb]; exact List.mem_cons_self
    · exact List.mem_cons_of_mem _ (boolOf_start_mem h)

theorem distinct_cons {x : Var} {xs : List Var} (h : distinct (x :: xs) = true) : x ∉ xs ∧ distinct xs = true := by
  rw [distinct, Bool.and_eq_true] at h
  refine ⟨?_, h.2⟩
  intro hx
  have := List.all_eq_true.1 h.1 x hx
  simp at this

theorem BoolsFit.tail {o : Option Bool} {bs : List (Option Bool)} {v : Val} {vs : List Val}
    (h : BoolsFit (o :: bs) (v :: vs)) : BoolsFit bs vs := by
  intro i b hi
  have := h (i + 1) b (by simpa using hi)
  simpa using this

theorem start_bools : ∀ {xs : List Var} {bs : List (Option Bool)} {vs : List Val}, distinct xs = true →
    BoolsFit bs vs → BoolsOk (startBools xs bs) (bindParams xs vs)
  | [], bs, vs, _, _ => by intro x b h; cases bs <;> cases h
  | y :: xs, [], vs, _, _ => by intro x b h; cases h
  | y :: xs, o :: bs, [], hd, hf => by
    have hnone : ∀ i b, (o :: bs)[i]? ≠ some (some b) := fun i b hi => by
      have := hf i b hi
      simp at this
    intro x b h
    exfalso
    have hf' : BoolsFit bs [] := by
      intro i b hi
      exact absurd (by simpa using hi) (hnone (i + 1) b)
    cases o with
    | some c => exact hnone 0 c rfl
    | none =>
      have := start_bools (distinct_cons hd).2 hf' x b h
      cases xs <;> cases this
  | y :: xs, o :: bs, v :: vs, hd, hf => by
    intro x b h
    obtain ⟨hy, hd'⟩ := distinct_cons hd
    have ih := start_bools hd' hf.tail
    show (bindParams xs vs).set y v x = .bool b
    cases o with
    | none =>
      have h' : boolOf x (startBools xs bs) = some b := h
      have hx := boolOf_start_mem h'
      rw [set_other (by rintro rfl; exact hy hx)]
      exact ih x b h'
    | some c =>
      rw [startBools, boolOf] at h
      split at h
      · next hb =>
        obtain rfl : c = b := by simpa using h
        rw [← beq_iff.1 hb, set_self]
        have := hf 0 c rfl
        simpa using this
      · have hx := boolOf_start_mem h
        rw [set_other (by rintro rfl; exact hy hx)]
        exact ih x b h

theorem start_inv {d : FunDef} {e : Entry} (ha : startState d e = some a) {vs : List Val} {ps : PS}
    (harg : ArgOk ru AL AR vs e.arg) :
    Inv ru toks (startOf toks e.used ps) AL AR (bindParams d.params vs) (leadStart toks ps.pos) (trailEnd toks ps.pos)
      a := by
  have hend : endOf (if e.used then Cov.cov else Cov.unc) (leadStart toks ps.pos) (trailEnd toks ps.pos) =
      startOf toks e.used ps := by
    cases e.used <;> rfl
  have hfr : ∀ x, (if e.used then Cov.cov else Cov.unc) ≠ .fresh x := by
    intro x
    cases e.used <;> simp
  unfold startState at ha
  dsimp only at ha
  split at ha
  · next he =>
    cases ha
    refine ⟨[], [], rfl, rfl, List.nil_sublist _, List.nil_sublist _, ?_, ?_, ?_, ?_⟩
    · exact Nat.le_of_eq hend.symm
    · intro x hx; exact absurd hx (hfr x)
    · intro x o hx; cases hx
    · intro x; exact .nil _
  · next l dd he =>
    rw [he] at harg
    obtain ⟨v0, r, p, rfl, hs, hA⟩ := harg
    split at ha
    · next x xs hps =>
      cases ha
      have hvars : ∀ y, SegsOk ru (bindParams d.params (v0 :: r) y) (of y [⟨x, dd, p⟩]) := by
        intro y
        rw [of]
        split
        · next hy =>
          dsimp only at hy
          subst hy
          rw [hps]
          show SegsOk ru ((bindParams xs r).set x v0 x) _
          rw [set_self]
          exact hs
        · exact .nil _
      have hw : words [(⟨x, dd, p⟩ : G)] = word p := by rw [words_cons, words_nil, List.append_nil]
      cases l with
      | true =>
        rw [if_pos rfl] at hA ⊢
        refine ⟨[], [⟨x, dd, p⟩], rfl, rfl, List.nil_sublist _, ?_, ?_, ?_, ?_, hvars⟩
        · rw [hw, hA.2]; exact List.sublist_append_left _ _
        · exact Nat.le_of_eq hend.symm
        · intro x hx; exact absurd hx (hfr x)
        · intro x o hx; cases hx
      | false =>
        rw [if_neg (by simp)] at hA ⊢
        refine ⟨[⟨x, dd, p⟩], [], rfl, rfl, ?_, List.nil_sublist _, ?_, ?_, ?_, ?_⟩
        · rw [hw, hA.1]
        · exact Nat.le_of_eq hend.symm
        · intro x hx; exact absurd hx (hfr x)
        · intro x o hx; cases hx
        · rw [List.append_nil]; exact hvars
    · cases ha

theorem mapM_mem {α β : Type} {f : α → OI.R β} : ∀ {l : List α} {m : List β}, l.mapM f = .ok m → ∀ x ∈ l,
    ∃ y ∈ m, f x = .ok y
  | [], m, _, x, hx => by cases hx
  | z :: l, m, h, x, hx => by
    rw [List.mapM_cons] at h
    cases hz : f z with
    | error e => rw [hz] at h; cases h
    | ok y =>
      cases hl : l.mapM f with
      | error e => rw [hz, hl] at h; cases h
      | ok m' =>
        rw [hz, hl] at h
        cases h
        rcases List.mem_cons.1 hx with rfl | hx
        · exact ⟨y, List.mem_cons_self, hz⟩
        · obtain ⟨y', hy', h'⟩ := mapM_mem hl x hx
          exact ⟨y', List.mem_cons_of_mem _ hy', h'⟩

/-- Functions do what the entries of the table say. -/
theorem callN_sound {U : Unicode} (he : Ends toks) {T : Fn → List Entry} {defs : Fn → FunDef} {fuel : Nat}
    (hT : ∀ f, ∀ e ∈ T f, checkEntry ru T (defs f) e = true) : ∀ n, CallOk ru toks T (callN U defs toks fuel n) := by
  intro n
  induction n with
  | zero => intro f e _ vs ps v ps' AL AR _ _ _ h; cases h
  | succ n ih =>
    intro f e hem vs ps v ps' AL AR hs harg hfit h
    have h' : runBody ⟨U, toks, fuel, callN U defs toks fuel n⟩ (defs f) vs ps = .ok (v, ps') := h
    have hc := hT f e hem
    unfold checkEntry at hc
    split at hc
    · cases hc
    · next l hl =>
      unfold runEntry at hl
      split at hl
      · cases hl
      · next hd =>
        replace hd : distinct (defs f).params = true := by simpa using hd
        split at hl
        · cases hl
        · next a ha =>
          split at hl
          · cases hl
          · next o ho =>
            unfold runBody at h'
            split at h'
            · next w s' hw =>
              cases h'
              have hok : Ok ru toks (startOf toks e.used ps) AL AR (startBools (defs f).params e.bools)
                  (bindParams (defs f).params vs REST) a ⟨ps, bindParams (defs f).params vs⟩ :=
                ⟨hs, start_bools hd hfit, _, fun _ _ => rfl, rfl, start_inv ha harg⟩
              obtain ⟨b, hb, val, hv, hwf, gl, gr, hg⟩ := exec_sound rfl he ih _ _ _ _ _ _ _ hok ho hw
              obtain ⟨r, hr, hr'⟩ := mapM_mem hl b hb
              obtain ⟨k1, k2⟩ := hg.sub_te (startOf_le hwf false)
              have := resultOf_sound hg k1 hr'
              rw [hv] at this
              exact ⟨hwf, k2, resLe_sound this (List.all_eq_true.1 hc r hr)⟩
            · cases h'
            · cases h'
            · cases h'
            · cases h'

end Verif.OI
