import Verif.Proofs.OrderState
/-! The operations of the analysis on states. -/
namespace Verif.OI
open Core Spec

variable {ru : Rules} {toks : List Token}
variable {st ls te : Nat} {AL AR : List Token} {val val' : Var → Val} {a b : OState}

theorem low_ne {x : Var} (h : low x = true) : x ≠ TMP ∧ x ≠ REST := by
  constructor <;> rintro rfl <;> cases h

/-! ### What segments say -/

theorem SegsOk.nodeSegs {v : Val} {gs : List DP} (h : SegsOk ru v gs) {as : Alts} {p : Parts}
    (hm : (Desc.node as, p) ∈ gs) : ∃ n m, v = .node n ∧ NodeSegs ru n gs ∧ slotsOf n.ty as = some m := by
  cases h with
  | nil => cases hm
  | @node n _ h =>
    obtain ⟨as', m, h1, h2, _⟩ := h.segs _ hm
    cases h1
    exact ⟨n, m, rfl, h, h2⟩
  | any h => cases List.mem_singleton.1 hm
  | vec h _ => cases List.mem_singleton.1 hm

theorem SegsOk.prints {n : Node} {d : Desc} {p : Parts} (h : SegsOk ru (.node n) [(d, p)]) :
    Prints (Must ru) n (word p) := by
  cases h with
  | node h => exact h.prints
  | any h => exact h

theorem SegsOk.vecOk {ns : List Node} {d : Desc} {p : Parts} (h : SegsOk ru (.vec ns) [(d, p)]) :
    ∃ o as, d = .vec o as ∧ VecOk ru as ns (word p) ∧ (o = true → ns.length = 1) := by
  cases h with
  | @vec _ o as _ h h1 => exact ⟨o, as, rfl, h, h1⟩

theorem SegsOk.whole {n : Node} {d : Desc} {p : Parts} (h : SegsOk ru (.node n) [(d, p)]) :
    Whole ru (elemAlts d) n (word p) := by
  cases h with
  | node h =>
    obtain ⟨as, m, h1, _⟩ := h.segs _ (List.mem_singleton_self _)
    dsimp only at h1
    subst h1
    exact ⟨p, h, rfl⟩
  | any h => exact h

theorem Whole.segs {as : Option Alts} {n : Node} {w : List Token} (h : Whole ru as n w) :
    ∃ p, word p = w ∧ SegsOk ru (.node n) [(elemDesc as, p)] := by
  cases as with
  | none =>
    have hw : word [(.token, w)] = w := by simp [word]
    exact ⟨[(.token, w)], hw, .any (by rw [hw]; exact h)⟩
  | some as =>
    obtain ⟨p, hp, hw⟩ := h
    exact ⟨p, hw, .node hp⟩

theorem VecOk.unsnoc {as : Option Alts} {ns : List Node} {n : Node} {w : List Token}
    (h : VecOk ru as (ns ++ [n]) w) : ∃ w1 w2, VecOk ru as ns w1 ∧ Whole ru as n w2 ∧ w = w1 ++ w2 := by
  obtain ⟨ws, h1, rfl⟩ := h
  induction ns generalizing ws with
  | nil =>
    cases h1 with
    | cons h1 h2 =>
      cases h2
      exact ⟨[], _, ⟨[], .nil, rfl⟩, h1, by simp⟩
  | cons m r ih =>
    cases h1 with
    | @cons _ w0 _ ws h1 h2 =>
      obtain ⟨w1, w2, ⟨ws1, h3, rfl⟩, h4, h5⟩ := ih ws h2
      exact ⟨w0 ++ ws1.flatten, w2, ⟨w0 :: ws1, .cons h1 h3, rfl⟩, h4, by
        rw [List.flatten_cons, h5, List.append_assoc]⟩

theorem VecOk.snoc {as : Option Alts} {ns : List Node} {n : Node} {w1 w2 : List Token}
    (h : VecOk ru as ns w1) (h' : Whole ru as n w2) : VecOk ru as (ns ++ [n]) (w1 ++ w2) := by
  obtain ⟨ws, h1, rfl⟩ := h
  exact ⟨ws ++ [w2], List.rel_append h1 (.cons h' .nil), by simp⟩

/-- The elements after one more. -/
theorem VecOk.join {as : Option Alts} {ns : List Node} {n : Node} {w : List Token} {d : Desc} {p : Parts}
    (h : VecOk ru as ns w) (h' : SegsOk ru (.node n) [(d, p)]) :
    VecOk ru (joinElems as d) (ns ++ [n]) (w ++ word p) := by
  have hany : VecOk ru none (ns ++ [n]) (w ++ word p) := h.any.snoc h'.prints
  unfold joinElems
  split
  · next as bs =>
    dsimp only
    split
    · next hj =>
      rw [Bool.and_eq_true] at hj
      exact (h.mono hj.1).snoc (h'.whole.mono hj.2)
    · exact hany
  · exact hany

theorem typesOf_spec {gl gr : List G} (h : Ghost ru toks st AL AR val ls te a gl gr) {x : Var} {ts : Alts}
    (ht : typesOf x a = some ts) :
    ∃ n m, val x = .node n ∧ NodeSegs ru n (of x (gl ++ gr)) ∧ slotsOf n.ty ts = some m := by
  unfold typesOf at ht
  rw [← h.segl, ← h.segr] at ht
  have hm : ∀ {as : Alts} {p : Parts}, (Desc.node as, p) ∈ of x (gl ++ gr) → some as = some ts →
      ∃ n m, val x = .node n ∧ NodeSegs ru n (of x (gl ++ gr)) ∧ slotsOf n.ty ts = some m := by
    intro as p hm hs
    cases hs
    exact (h.vars x).nodeSegs hm
  split at ht
  · next as hf =>
    obtain ⟨p, hp⟩ := find_some hf
    exact hm (by rw [of_append]; exact List.mem_append_left _ hp) ht
  · cases ht
  · next hf =>
    split at ht
    · next as hf' =>
      obtain ⟨p, hp⟩ := find_some hf'
      exact hm (by rw [of_append]; exact List.mem_append_right _ hp) ht
    · cases ht
    · next hf' =>
      split at ht
      · next t he =>
        cases ht
        rw [noOwn_of_append (find_none_of hf) (find_none_of hf'), h.em x _ he]
        refine ⟨Node.empty t, 0, rfl, nodeSegs_empty t, ?_⟩
        rw [slotsOf_cons]
        exact if_pos rfl
      · cases ht

/-! ### Lists of segments -/

theorem of_count {x : Var} {l l' : List G} (h : of x l' = of x l) :
    count x (l'.map G.seg) = count x (l.map G.seg) := by rw [← of_length, ← of_length, h]

/-- Remove a key from the segments of a node. -/
def gclear (x : Var) (k : Key) (l : List G) : List G :=
  l.map fun g => if g.own = x then ⟨x, (clearDP k (g.d, g.ps)).1, (clearDP k (g.d, g.ps)).2⟩ else g

theorem gclear_seg (x : Var) (k : Key) (l : List G) :
    (gclear x k l).map G.seg = clearSlot x (AI.kbit k) (l.map G.seg) := by
  induction l with
  | nil => rfl
  | cons g r ih =>
    rw [List.map_cons, clearSlot, seg_own, beq_eq, ← ih]
    unfold gclear
    rw [List.map_cons, List.map_cons]
    congr 1
    by_cases hg : g.own = x
    · rw [if_pos hg, decide_eq_true hg, if_pos rfl]
      obtain ⟨o, d, ps⟩ := g
      cases d <;> rfl
    · rw [if_neg hg, decide_eq_false hg]; rfl

theorem of_gclear (x : Var) (k : Key) (l : List G) : of x (gclear x k l) = (of x l).map (clearDP k) := by
  induction l with
  | nil => rfl
  | cons g r ih =>
    unfold gclear at ih ⊢
    rw [List.map_cons, of, of, ih]
    by_cases hg : g.own = x
    · rw [if_pos hg, if_pos rfl, if_pos hg]; rfl
    · rw [if_neg hg, if_neg hg, if_neg hg]

theorem of_gclear_ne {x y : Var} (h : y ≠ x) (k : Key) (l : List G) : of y (gclear x k l) = of y l := by
  induction l with
  | nil => rfl
  | cons g r ih =>
    unfold gclear at ih ⊢
    rw [List.map_cons, of, of, ih]
    by_cases hg : g.own = x
    · rw [if_pos hg]
      dsimp only
      rw [if_neg h.symm, if_neg (by rw [hg]; exact h.symm)]
    · rw [if_neg hg]

theorem word_sublist {p q : Parts} (h : p.Sublist q) : (word p).Sublist (word q) := by
  unfold word
  induction h with
  | slnil => exact .refl _
  | cons a _ ih =>
    rw [List.flatMap_cons]
    exact ih.trans (List.sublist_append_right _ _)
  | cons_cons a _ ih =>
    rw [List.flatMap_cons, List.flatMap_cons]
    exact (List.Sublist.refl _).append ih

theorem words_gclear (x : Var) (k : Key) (l : List G) : (words (gclear x k l)).Sublist (words l) := by
  induction l with
  | nil => exact .refl _
  | cons g r ih =>
    unfold gclear at ih ⊢
    rw [List.map_cons, words_cons, words_cons]
    refine List.Sublist.append ?_ ih
    split
    · exact word_sublist List.filter_sublist
    · exact .refl _

theorem compact_both {gl gr : List G} {l r : List Seg} (hl : compact ru (gl.map G.seg) = .ok l)
    (hr : compact ru (gr.map G.seg) = .ok r) : ∃ gl' gr', gl'.map G.seg = l ∧ gr'.map G.seg = r ∧
      words gl' = words gl ∧ words gr' = words gr ∧
      ∀ y v, SegsOk ru v (of y (gl ++ gr)) → SegsOk ru v (of y (gl' ++ gr')) := by
  obtain ⟨gl', h1, h2, h3⟩ := compact_spec hl
  obtain ⟨gr', h4, h5, h6⟩ := compact_spec hr
  refine ⟨gl', gr', h1, h4, h2, h5, ?_⟩
  intro y v h
  rw [of_append] at h ⊢
  exact (h6 y v _ ((h3 y v _ h).of_perm List.perm_append_comm)).of_perm List.perm_append_comm

/-! ### push_node and push_node_vec -/

theorem Inv.push (hi : Inv ru toks st AL AR val ls te a) {x : Var} {k : Key} {isVec : Bool}
    (hp : apush ru x k isVec a = .ok b) {n n' : Node} {cs : List Node} (hv : val x = .node n)
    (hn : Pushed n n' k cs)
    (hT : (isVec = true ∧ val TMP = .vec cs) ∨ (isVec = false ∧ ∃ c, val TMP = .node c ∧ cs = [c]))
    (hv' : val' x = .node n') (ho : ∀ y, y ≠ x → y ≠ TMP → val' y = val y) :
    Inv ru toks st AL AR val' ls te b := by
  obtain ⟨gl, gr, h⟩ := hi
  unfold apush at hp
  split at hp
  · cases hp
  · next hlow =>
    have hxT : x ≠ TMP := (low_ne (by simpa using hlow)).1
    split at hp
    · cases hp
    · next ts hts =>
      obtain ⟨n0, m, h1, h2, h3⟩ := typesOf_spec h hts
      rw [hv] at h1
      cases h1
      dsimp only at hp
      have hclr : ∀ y, y ≠ x → of y (gclear x k gl ++ gclear x k gr) = of y (gl ++ gr) := by
        intro y hy
        rw [of_append, of_append, of_gclear_ne hy, of_gclear_ne hy]
      have hclx : of x (gclear x k gl ++ gclear x k gr) = (of x (gl ++ gr)).map (clearDP k) := by
        rw [of_append, of_append, of_gclear, of_gclear, List.map_append]
      by_cases hc : count TMP a.lw + count TMP a.rw = 1
      · rw [if_pos (beq_iff.2 hc)] at hp
        rw [← h.segl, ← h.segr] at hp hc
        rw [← gclear_seg, ← gclear_seg] at hp
        have hc' : count TMP ((gclear x k gl).map G.seg) + count TMP ((gclear x k gr).map G.seg) = 1 := by
          rw [of_count (of_gclear_ne hxT.symm k gl), of_count (of_gclear_ne hxT.symm k gr)]
          exact hc
        obtain ⟨t, rest, ht, hperm, hno, hfind, hrep⟩ := pick hc'
        have hT0 : SegsOk ru (val TMP) [(t.d, t.ps)] := by
          have := (h.vars TMP)
          rw [← hclr TMP hxT.symm] at this
          have := this.of_perm (of_perm hperm TMP)
          rw [of, if_pos ht, of_none hno] at this
          exact this
        have hcs : PrintsAll (Must ru) cs (word t.ps) := by
          rcases hT with ⟨_, hT⟩ | ⟨_, c, hT, rfl⟩
          · rw [hT] at hT0
            obtain ⟨_, _, _, h4, _⟩ := hT0.vecOk
            exact h4.prints
          · rw [hT] at hT0
            have := PrintsAll.cons hT0.prints PrintsAll.nil
            rwa [List.append_nil] at this
        have hnew := h2.push hn hcs h3
        obtain ⟨gl', gr', h4, h5, h6, h7, h8⟩ := hrep
          ⟨x, .node (withSlots (AI.kbit k) ts), if cs = [] then [] else [(.child k, word t.ps)]⟩ (by
            dsimp only
            split
            · exact List.nil_sublist _
            · simp [word])
        have done : ∀ {l r : List Seg}, compact ru (gl'.map G.seg) = .ok l → compact ru (gr'.map G.seg) = .ok r →
            Inv ru toks st AL AR val' ls te ⟨a.cov.commit, l, r, emWithout x (emWithout TMP a.em)⟩ := by
          intro l r hl hr
          obtain ⟨gl2, gr2, h9, h10, h11, h12, h13⟩ := compact_both hl hr
          refine ⟨gl2, gr2, h.commitTo rfl h9 h10 ?_ ?_ ?_ ?_⟩
          · rw [h11]; exact h7.trans (words_gclear _ _ _)
          · rw [h12]; exact h8.trans (words_gclear _ _ _)
          · intro y o hy
            dsimp only at hy
            rw [emFind_without, emFind_without] at hy
            split at hy
            · cases hy
            · split at hy
              · cases hy
              · next hyx hyT => rw [ho y hyx hyT]; exact h.em y o hy
          · intro y
            refine h13 y _ (SegsOk.of_perm ?_ (of_perm h6 y).symm)
            rw [of]
            dsimp only
            by_cases hyx : y = x
            · subst hyx
              rw [if_pos rfl, hv']
              refine .node (hnew.of_perm (List.Perm.cons _ ?_))
              rw [← hclx]
              have := of_perm hperm y
              rwa [of, if_neg (by rw [ht]; exact hxT.symm)] at this
            · rw [if_neg (Ne.symm hyx)]
              by_cases hyT : y = TMP
              · subst hyT
                rw [of_none hno]
                exact .nil _
              · have h14 := of_perm hperm y
                rw [of, if_neg (by rw [ht]; exact Ne.symm hyT), hclr y hyx] at h14
                rw [ho y hyx hyT]
                exact (h.vars y).of_perm h14
        have hu : (⟨x, .node (withSlots (AI.kbit k) ts), if cs = [] then [] else [(.child k, word t.ps)]⟩ : G).seg =
          ⟨x, .node (withSlots (AI.kbit k) ts)⟩ := rfl
        rw [hu] at h4 h5
        rcases hfind with ⟨hf, hng⟩ | ⟨hf, hf'⟩
        · rw [replace_none _ hng] at h5
          rw [hf] at hp
          split at hp
          · split at hp
            · rw [← h4, ← h5] at hp
              split at hp
              · cases hp
              · next hl =>
                split at hp
                · cases hp
                · next hr => cases hp; exact done hl hr
            · cases hp
          · split at hp
            · cases hp
            · rw [← h4, ← h5] at hp
              split at hp
              · cases hp
              · next hl =>
                split at hp
                · cases hp
                · next hr => cases hp; exact done hl hr
          · next hx _ => cases hx
          · next hx _ => cases hx
          · next hx _ => cases hx
        · rw [replace_none _ (find_none_of hf)] at h4
          rw [hf, hf'] at hp
          split at hp
          · next hx => cases hx
          · next hx => cases hx
          · split at hp
            · rw [← h4, ← h5] at hp
              split at hp
              · cases hp
              · next hl =>
                split at hp
                · cases hp
                · next hr => cases hp; exact done hl hr
            · cases hp
          · split at hp
            · cases hp
            · rw [← h4, ← h5] at hp
              split at hp
              · cases hp
              · next hl =>
                split at hp
                · cases hp
                · next hr => cases hp; exact done hl hr
          · cases hp
      · rw [if_neg (fun h => hc (beq_iff.1 h))] at hp
        split at hp
        · next hc0 =>
          rw [Bool.and_eq_true] at hc0
          split at hp
          · next heT =>
            split at hp
            · next hex =>
              cases hp
              have hTv := h.em TMP _ heT
              have hcs : cs = [] := by
                rcases hT with ⟨_, hT⟩ | ⟨h9, _⟩
                · rw [hT] at hTv; cases hTv; rfl
                · rw [h9] at hc0; cases hc0.2
              subst hcs
              refine ⟨gclear x k gl, gclear x k gr, h.commitTo rfl ?_ ?_ (words_gclear _ _ _)
                (words_gclear _ _ _) ?_ ?_⟩
              · rw [gclear_seg, h.segl]
              · rw [gclear_seg, h.segr]
              · intro y o hy
                dsimp only at hy
                rw [emFind_without] at hy
                split at hy
                · cases hy
                · next hyT =>
                  by_cases hyx : y = x
                  · subst hyx; rw [hex] at hy; cases hy
                  · rw [ho y hyx hyT]; exact h.em y o hy
              · intro y
                by_cases hyx : y = x
                · subst hyx
                  rw [hclx, hv']
                  exact .node (h2.pushNil hn)
                · rw [hclr y hyx]
                  by_cases hyT : y = TMP
                  · subst hyT
                    have h0 := beq_iff.1 hc0.1
                    rw [← h.segl, ← h.segr] at h0
                    rw [noOwn_of_append (noOwn_count (by omega)) (noOwn_count (by omega))]
                    exact .nil _
                  · rw [ho y hyx hyT]; exact h.vars y
            · cases hp
          · cases hp
        · cases hp

/-! ### Vectors -/

theorem perm_noOwn {x : Var} {l l' : List G} (h : l.Perm l') (hn : NoOwn x l) : NoOwn x l' :=
  fun g hg => hn g (h.mem_iff.2 hg)

theorem absorb_spec {x : Var} : ∀ {l : List G} {r : List Seg}, absorb x (l.map G.seg) = .ok r →
    ∃ l1 gx gt l2 o as, l = l1 ++ gx :: gt :: l2 ∧ gx.own = x ∧ gt.own = TMP ∧ gx.d = .vec o as ∧
      (l1 ++ (⟨x, .vec false (joinElems as gt.d), gx.ps ++ gt.ps⟩ : G) :: l2).map G.seg = r
  | [], _, h => by cases h
  | [_], _, h => by cases h
  | g :: g' :: l, r, h => by
    rw [List.map_cons, List.map_cons, absorb] at h
    split at h
    · next hg =>
      rw [Bool.and_eq_true] at hg
      split at h
      · next o as hd =>
        cases h
        exact ⟨[], g, g', l, o, as, rfl, beq_iff.1 hg.1, beq_iff.1 hg.2, hd, rfl⟩
      · cases h
    · split at h
      · cases h
      · next r' hr =>
        cases h
        rw [← List.map_cons] at hr
        obtain ⟨l1, gx, gt, l2, o, as, h1, h2, h3, h4, h5⟩ := absorb_spec hr
        refine ⟨g :: l1, gx, gt, l2, o, as, by rw [h1]; rfl, h2, h3, h4, ?_⟩
        rw [List.cons_append, List.map_cons, h5]

/-- The core of `x.push(node)`. -/
theorem Ghost.appendCore {gl gr gl' gr' : List G} {x : Var} {ns : List Node} {c : Node} {gx gt : G}
    {rest : List G} {o : Bool} {as : Option Alts} (hxT : x ≠ TMP)
    (h : Ghost ru toks st AL AR val ls te a gl gr) (hv : val x = .vec ns) (hT : val TMP = .node c)
    (hv' : val' x = .vec (ns ++ [c])) (ho : ∀ y, y ≠ x → y ≠ TMP → val' y = val y)
    (h1 : (gl ++ gr).Perm (gx :: gt :: rest)) (hx : gx.own = x) (ht : gt.own = TMP) (hd : gx.d = .vec o as)
    (hcx : (of x (gl ++ gr)).length = 1) (hct : (of TMP (gl ++ gr)).length = 1)
    (h2 : (gl' ++ gr').Perm ((⟨x, .vec false (joinElems as gt.d), gx.ps ++ gt.ps⟩ : G) :: rest)) (y : Var) :
    SegsOk ru (val' y) (of y (gl' ++ gr')) := by
  have hpx := of_perm h1 x
  have hpt := of_perm h1 TMP
  rw [of, if_pos hx, of, if_neg (by rw [ht]; exact hxT.symm)] at hpx
  rw [of, if_neg (by rw [hx]; exact hxT), of, if_pos ht] at hpt
  have hrx : of x rest = [] := by
    have := hpx.length_eq
    rw [hcx, List.length_cons] at this
    exact List.length_eq_zero_iff.1 (by omega)
  have hrt : of TMP rest = [] := by
    have := hpt.length_eq
    rw [hct, List.length_cons] at this
    exact List.length_eq_zero_iff.1 (by omega)
  rw [hrx] at hpx
  rw [hrt] at hpt
  refine SegsOk.of_perm ?_ (of_perm h2 y).symm
  rw [of]
  dsimp only
  by_cases hyx : y = x
  · subst hyx
    rw [if_pos rfl, hrx, hv']
    have hX := (h.vars y).of_perm hpx
    have hTT := (h.vars TMP).of_perm hpt
    rw [hv, hd] at hX
    rw [hT] at hTT
    obtain ⟨_, _, h3, h4, _⟩ := hX.vecOk
    cases h3
    refine .vec ?_ (by intro h; cases h)
    have := h4.join hTT
    unfold word at this ⊢
    rw [List.flatMap_append]
    exact this
  · rw [if_neg (Ne.symm hyx)]
    by_cases hyT : y = TMP
    · subst hyT
      rw [hrt]
      exact .nil _
    · have h3 := of_perm h1 y
      rw [of, if_neg (by rw [hx]; exact Ne.symm hyx), of, if_neg (by rw [ht]; exact Ne.symm hyT)] at h3
      rw [ho y hyx hyT]
      exact (h.vars y).of_perm h3

theorem words_absorb (l1 l2 : List G) (gx gt : G) (x : Var) (d : Desc) :
    words (l1 ++ (⟨x, d, gx.ps ++ gt.ps⟩ : G) :: l2) = words (l1 ++ gx :: gt :: l2) := by
  rw [words_append, words_append, words_cons, words_cons, words_cons, ← List.append_assoc (word gx.ps)]
  congr 2
  exact List.flatMap_append

theorem Inv.append (hi : Inv ru toks st AL AR val ls te a) {x : Var} (hp : aappend x a = .ok b)
    {ns : List Node} {c : Node} (hv : val x = .vec ns) (hT : val TMP = .node c)
    (hv' : val' x = .vec (ns ++ [c])) (ho : ∀ y, y ≠ x → val' y = val y) :
    Inv ru toks st AL AR val' ls te b := by
  obtain ⟨gl, gr, h⟩ := hi
  unfold aappend at hp
  split at hp
  · cases hp
  · next hlow =>
    have hxT : x ≠ TMP := (low_ne (by simpa using hlow)).1
    dsimp only at hp
    split at hp
    · next hc =>
      have hc := beq_iff.1 hc
      rw [← h.segl, ← h.segr] at hc hp
      split at hp
      · next hex =>
        have hns : ns = [] := by
          have := h.em x _ hex
          rw [hv] at this
          cases this
          rfl
        subst hns
        split at hp
        · cases hp
        · next hc0 =>
          have hc0 : count x (gl.map G.seg) + count x (gr.map G.seg) = 0 := by
            rw [Bool.not_eq_true, Bool.not_eq_false'] at hc0
            exact beq_iff.1 hc0
          have hnx : NoOwn x (gl ++ gr) := noOwn_append.2 ⟨noOwn_count (by omega), noOwn_count (by omega)⟩
          obtain ⟨t, rest, ht, hperm, hno, hfind, hrep⟩ := pick hc
          have hT0 : SegsOk ru (val TMP) [(t.d, t.ps)] := by
            have := (h.vars TMP).of_perm (of_perm hperm TMP)
            rw [of, if_pos ht, of_none hno] at this
            exact this
          rw [hT] at hT0
          have hasEq : firstAlts (find TMP (gl.map G.seg)) (find TMP (gr.map G.seg)) = elemAlts t.d := by
            rcases hfind with ⟨hf, _⟩ | ⟨hf, hf'⟩
            · rw [hf]; rfl
            · rw [hf, hf']; rfl
          rw [hasEq] at hp
          cases hp
          obtain ⟨gl', gr', h4, h5, h6, h7, h8⟩ := hrep
            ⟨x, .vec true (elemAlts t.d), t.ps⟩ (.refl _)
          refine ⟨gl', gr', h.commitTo rfl h4 h5 h7 h8 ?_ ?_⟩
          · intro y o hy
            dsimp only at hy
            rw [emFind_without] at hy
            split at hy
            · cases hy
            · next hyx => rw [ho y hyx]; exact h.em y o hy
          · intro y
            refine SegsOk.of_perm ?_ (of_perm h6 y).symm
            rw [of]
            dsimp only
            by_cases hyx : y = x
            · subst hyx
              rw [if_pos rfl, hv']
              have : of y rest = [] :=
                of_none fun g hg => perm_noOwn hperm hnx g (List.mem_cons_of_mem _ hg)
              rw [this]
              refine .vec ⟨[word t.ps], .cons hT0.whole .nil, by simp⟩ (fun _ => rfl)
            · rw [if_neg (Ne.symm hyx)]
              by_cases hyT : y = TMP
              · subst hyT
                rw [of_none hno]
                exact .nil _
              · have h14 := of_perm hperm y
                rw [of, if_neg (by rw [ht]; exact Ne.symm hyT)] at h14
                rw [ho y hyx]
                exact (h.vars y).of_perm h14
      · cases hp
      · next hex =>
        split at hp
        · next hcx =>
          have hcx := beq_iff.1 hcx
          have hlx : (of x (gl ++ gr)).length = 1 := by
            rw [of_length, List.map_append, count_append]; exact hcx
          have hlT : (of TMP (gl ++ gr)).length = 1 := by
            rw [of_length, List.map_append, count_append]; exact hc
          have hem : ∀ y o, emFind y a.em = some o → val' y = emVal o := by
            intro y o hy
            by_cases hyx : y = x
            · subst hyx; rw [hex] at hy; cases hy
            · rw [ho y hyx]; exact h.em y o hy
          split at hp
          · split at hp
            · cases hp
            · next l hl =>
              cases hp
              obtain ⟨l1, gx, gt, l2, o, as, rfl, h2, h3, h4, h5⟩ := absorb_spec hl
              refine ⟨_, gr, h.commitTo rfl h5 rfl ?_ (.refl _) hem ?_⟩
              · rw [words_absorb]
              · refine h.appendCore (rest := l1 ++ l2 ++ gr) hxT hv hT hv' (fun y h _ => ho y h) ?_ h2 h3 h4 hlx hlT ?_
                · rw [List.append_assoc, List.append_assoc]
                  refine List.perm_middle.trans (List.Perm.cons _ ?_)
                  exact List.perm_middle
                · rw [List.append_assoc, List.append_assoc]
                  exact List.perm_middle
          · split at hp
            · cases hp
            · next l hl =>
              cases hp
              obtain ⟨l1, gx, gt, l2, o, as, rfl, h2, h3, h4, h5⟩ := absorb_spec hl
              refine ⟨gl, _, h.commitTo rfl rfl h5 (.refl _) ?_ hem ?_⟩
              · rw [words_absorb]
              · refine h.appendCore (rest := gl ++ l1 ++ l2) hxT hv hT hv' (fun y h _ => ho y h) ?_ h2 h3 h4 hlx hlT ?_
                · rw [← List.append_assoc]
                  refine List.perm_middle.trans (List.Perm.cons _ ?_)
                  exact List.perm_middle
                · rw [← List.append_assoc]
                  exact List.perm_middle
        · cases hp
    · cases hp

theorem split_mid {x y : Var} {l1 l2 : List G} {t u1 u2 : G} {o : Bool} {as : Option Alts} (h1 : NoOwn x l1)
    (ht : t.own = x) (hd : t.d = .vec o as) (hu1 : u1.seg = ⟨x, .vec false as⟩)
    (hu2 : u2.seg = ⟨y, elemDesc as⟩) :
    split x y ((l1 ++ t :: l2).map G.seg) = (l1 ++ u1 :: u2 :: l2).map G.seg := by
  induction l1 with
  | nil =>
    rw [List.nil_append, List.map_cons, split, seg_own, beq_eq, decide_eq_true ht, if_pos rfl]
    show (match t.d with | .vec _ as => _ | _ => _) = _
    rw [hd]
    dsimp only
    rw [List.nil_append, List.map_cons, List.map_cons, hu1, hu2]
  | cons g r ih =>
    rw [List.cons_append, List.map_cons, split, seg_own, beq_eq,
      decide_eq_false (h1 g List.mem_cons_self), ih fun g hg => h1 g (List.mem_cons_of_mem _ hg)]
    rfl

/-- Take the last element off a vector. -/
theorem Inv.splitOff (hi : Inv ru toks st AL AR val ls te a) {x y : Var} (hxy : x ≠ y)
    (h0 : count x a.lw = 0) (h1 : count x a.rw = 1) (hyl : count y a.lw = 0) (hyr : count y a.rw = 0)
    (hye : emFind y a.em = none) {ns : List Node} {n : Node} (hv : val x = .vec (ns ++ [n]))
    (hvx : val' x = .vec ns) (hvy : val' y = .node n) (ho : ∀ z, z ≠ x → z ≠ y → val' z = val z) :
    Inv ru toks st AL AR val' ls te ⟨a.cov.commit, a.lw, split x y a.rw, a.em⟩ := by
  obtain ⟨gl, gr, h⟩ := hi
  rw [← h.segl] at h0 hyl
  rw [← h.segr] at h1 hyr
  obtain ⟨l1, t, l2, rfl, h2, h3, h4⟩ := split_one h1
  have hnl := noOwn_count h0
  have hX : SegsOk ru (val x) [(t.d, t.ps)] := by
    have := h.vars x
    rwa [of_append, of_none hnl, of_append, of_none h3, of, if_pos h2, of_none h4] at this
  rw [hv] at hX
  obtain ⟨o, as, h5, h6, _⟩ := hX.vecOk
  obtain ⟨w1, w2, h7, h8, h9⟩ := h6.unsnoc
  obtain ⟨p, hp, hs⟩ := h8.segs
  have hw1 : word [(Slot.token, w1)] = w1 := by simp [word]
  have hny : NoOwn y (l1 ++ t :: l2) := noOwn_count hyr
  obtain ⟨hny1, hny2⟩ := noOwn_append.1 hny
  have hny2 : NoOwn y l2 := fun g hg => hny2 g (List.mem_cons_of_mem _ hg)
  refine ⟨gl, l1 ++ (⟨x, .vec false as, [(.token, w1)]⟩ : G) ::
    (⟨y, elemDesc as, p⟩ : G) :: l2,
    h.commitTo rfl h.segl ?_ (.refl _) ?_ ?_ ?_⟩
  · rw [← h.segr]
    exact (split_mid h3 h2 h5 rfl rfl).symm
  · rw [words_append, words_append, words_cons, words_cons, words_cons]
    dsimp only
    rw [hw1, hp, h9, List.append_assoc]
  · intro z o hz
    dsimp only at hz
    by_cases hzx : z = x
    · subst hzx
      have := h.em _ _ hz
      rw [hv] at this
      cases o with
      | none =>
        simp only [emVal, Val.vec.injEq] at this
        exact absurd this (by simp)
      | some t => cases this
    · by_cases hzy : z = y
      · subst hzy; rw [hye] at hz; cases hz
      · rw [ho z hzx hzy]; exact h.em z o hz
  · intro z
    have h10 := h.vars z
    rw [of_append, of_append, of] at h10 ⊢
    rw [of]
    dsimp only
    by_cases hzx : z = x
    · subst hzx
      rw [of_none hnl, of_none h3, of_none h4, if_pos rfl, if_neg hxy.symm, hvx]
      exact .vec (by rw [hw1]; exact h7) (by intro h; cases h)
    · rw [if_neg (Ne.symm hzx)]
      rw [if_neg (by rw [h2]; exact Ne.symm hzx)] at h10
      by_cases hzy : z = y
      · subst hzy
        rw [of_none (noOwn_count hyl), of_none hny1, of_none hny2, if_pos rfl, hvy]
        exact hs
      · rw [if_neg (Ne.symm hzy), ho z hzx hzy]
        exact h10

/-- Take the only element out of a vector. -/
theorem Inv.popOne (hi : Inv ru toks st AL AR val ls te a) {x y : Var} (hxy : x ≠ y)
    (h0 : count x a.lw = 0) (h1 : count x a.rw = 1) (hyl : count y a.lw = 0) (hyr : count y a.rw = 0)
    (hye : emFind y a.em = none) {as : Option Alts} (hf : find x a.rw = some (.vec true as))
    {ns : List Node} {n : Node} (hv : val x = .vec (ns ++ [n]))
    (hvx : val' x = .vec ns) (hvy : val' y = .node n) (ho : ∀ z, z ≠ x → z ≠ y → val' z = val z) :
    Inv ru toks st AL AR val' ls te ⟨a.cov.commit, a.lw,
      replaceSeg x ⟨y, elemDesc as⟩ a.rw, (x, none) :: a.em⟩ := by
  obtain ⟨gl, gr, h⟩ := hi
  rw [← h.segl] at h0 hyl
  rw [← h.segr] at h1 hyr hf
  obtain ⟨l1, t, l2, rfl, h2, h3, h4⟩ := split_one h1
  have hnl := noOwn_count h0
  have hX : SegsOk ru (val x) [(t.d, t.ps)] := by
    have := h.vars x
    rwa [of_append, of_none hnl, of_append, of_none h3, of, if_pos h2, of_none h4] at this
  rw [find_mid h3 h2] at hf
  have hd : t.d = .vec true as := by simpa using hf
  rw [hv, hd] at hX
  obtain ⟨o, as', h5, h6, h6'⟩ := hX.vecOk
  cases h5
  have hns : ns = [] := by
    have := h6' rfl
    rw [List.length_append, List.length_singleton] at this
    exact List.length_eq_zero_iff.1 (by omega)
  subst hns
  obtain ⟨w1, w2, _, h8, h9⟩ := h6.unsnoc
  obtain ⟨p, hp, hs⟩ := h8.segs
  have hny : NoOwn y (l1 ++ t :: l2) := noOwn_count hyr
  obtain ⟨hny1, hny2⟩ := noOwn_append.1 hny
  have hny2 : NoOwn y l2 := fun g hg => hny2 g (List.mem_cons_of_mem _ hg)
  refine ⟨gl, l1 ++ (⟨y, elemDesc as, p⟩ : G) :: l2,
    h.commitTo rfl h.segl ?_ (.refl _) ?_ ?_ ?_⟩
  · rw [← h.segr]
    exact (replace_mid (⟨y, elemDesc as, p⟩ : G) h3 h2 h4).symm
  · rw [words_append, words_append, words_cons, words_cons]
    refine (List.Sublist.refl _).append (List.Sublist.append ?_ (.refl _))
    dsimp only
    rw [hp, h9]
    exact List.sublist_append_right _ _
  · intro z o hz
    dsimp only at hz
    rw [emFind, beq_eq] at hz
    by_cases hzx : x = z
    · subst hzx
      rw [decide_eq_true rfl] at hz
      cases hz
      exact hvx
    · rw [decide_eq_false hzx] at hz
      by_cases hzy : z = y
      · subst hzy; exact absurd (hye.symm.trans hz) (by simp)
      · rw [ho z (Ne.symm hzx) hzy]; exact h.em z o hz
  · intro z
    have h10 := h.vars z
    rw [of_append, of_append, of] at h10 ⊢
    dsimp only
    by_cases hzx : z = x
    · subst hzx
      rw [of_none hnl, of_none h3, of_none h4, if_neg hxy.symm]
      exact .nil _
    · rw [if_neg (by rw [h2]; exact Ne.symm hzx)] at h10
      by_cases hzy : z = y
      · subst hzy
        rw [of_none (noOwn_count hyl), of_none hny1, of_none hny2, if_pos rfl, hvy]
        exact hs
      · rw [if_neg (Ne.symm hzy), ho z hzx hzy]
        exact h10

/-! ### Types -/

theorem retypeWord_spec {x : Var} {nt : NodeType} : ∀ {l : List G} {r : List Seg},
    retypeWord ru x nt (l.map G.seg) = .ok r → ∃ l', l'.map G.seg = r ∧
      Upd x (fun g g' => g'.2 = g.2 ∧ ∃ as m, g.1 = .node as ∧ retype ru nt as = .ok m ∧
        g'.1 = .node [(nt, m)]) l l'
  | [], r, h => by cases h; exact ⟨[], rfl, .nil⟩
  | g :: t, r, h => by
    rw [List.map_cons, retypeWord] at h
    split at h
    · cases h
    · next q hq =>
      obtain ⟨t', h1, h2⟩ := retypeWord_spec hq
      rw [seg_own, beq_eq] at h
      by_cases hg : g.own = x
      · rw [decide_eq_true hg, if_pos rfl] at h
        split at h
        · next as hd =>
          split at h
          · cases h
          · next m hm =>
            cases h
            refine ⟨⟨x, .node [(nt, m)], g.ps⟩ :: t', by rw [List.map_cons, h1]; rfl, .cons ⟨hg.symm, ?_⟩ h2⟩
            rw [if_pos hg]
            exact ⟨rfl, as, m, hd, hm, rfl⟩
        · cases h
      · rw [decide_eq_false hg] at h
        cases h
        refine ⟨g :: t', by rw [List.map_cons, h1], .cons ⟨rfl, ?_⟩ h2⟩
        rw [if_neg hg]

theorem Inv.setType (hi : Inv ru toks st AL AR val ls te a) {x : Var} {nt : NodeType}
    (hp : asetType ru x nt a = .ok b) {n : Node} (hv : val x = .node n)
    (hv' : val' x = .node (n.setType nt)) (ho : ∀ y, y ≠ x → val' y = val y) :
    Inv ru toks st AL AR val' ls te b := by
  obtain ⟨gl, gr, h⟩ := hi
  unfold asetType at hp
  rw [← h.segl, ← h.segr] at hp
  split at hp
  · cases hp
  · split at hp
    · cases hp
    · next hex =>
      split at hp
      · cases hp
      · next l hl =>
        split at hp
        · cases hp
        · next r hr =>
          cases hp
          obtain ⟨gl', h1, h2⟩ := retypeWord_spec hl
          obtain ⟨gr', h3, h4⟩ := retypeWord_spec hr
          refine ⟨gl', gr', h.keep rfl h1 h3 (h2.words ?_) (h4.words ?_) (fun z => (h4.without z).words ?_) ?_ ?_⟩
          · intro g g' hg; rw [hg.1]
          · intro g g' hg; rw [hg.1]
          · intro g g' hg; rw [hg.1]
          · intro y o hy
            dsimp only at hy
            by_cases hyx : y = x
            · subst hyx; rw [hex] at hy; cases hy
            · rw [ho y hyx]; exact h.em y o hy
          · intro y
            have hy := h.vars y
            rw [of_append] at hy ⊢
            by_cases hyx : y = x
            · subst hyx
              have hf : List.Forall₂ _ (of y gl ++ of y gr) (of y gl' ++ of y gr') :=
                List.rel_append h2.of h4.of
              rw [hv] at hy
              rw [hv']
              generalize of y gl ++ of y gr = gs at hy hf
              generalize of y gl' ++ of y gr' = gs' at hf
              cases hy with
              | nil => cases hf; exact .nil _
              | node hn => exact .node (hn.setType hf)
              | any _ =>
                cases hf with
                | cons h5 _ => obtain ⟨_, _, _, h6, _⟩ := h5; cases h6
            · rw [h2.other hyx, h4.other hyx, ho y hyx]
              exact hy

/-! ### Conditions -/

theorem asOne_upd (x : Var) : ∀ l : List G, ∃ l', l'.map G.seg = asOne x (l.map G.seg) ∧
    Upd x (fun g g' => g'.2 = g.2 ∧ g'.1 = oneDesc g.1) l l'
  | [] => ⟨[], rfl, .nil⟩
  | g :: t => by
    obtain ⟨t', h1, h2⟩ := asOne_upd x t
    rw [List.map_cons, asOne, seg_own, beq_eq]
    by_cases hg : g.own = x
    · rw [decide_eq_true hg, if_pos rfl]
      refine ⟨⟨x, oneDesc g.d, g.ps⟩ :: t', by rw [List.map_cons, h1]; rfl, .cons ⟨hg.symm, ?_⟩ h2⟩
      rw [if_pos hg]; exact ⟨rfl, rfl⟩
    · rw [decide_eq_false hg]
      refine ⟨g :: t', by rw [List.map_cons, h1]; rfl, .cons ⟨rfl, ?_⟩ h2⟩
      rw [if_neg hg]

theorem ofType_upd (x : Var) (ty : NodeType) : ∀ l : List G, ∃ l', l'.map G.seg = ofType x ty (l.map G.seg) ∧
    Upd x (fun g g' => g'.2 = g.2 ∧ g'.1 = typeDesc ty g.1) l l'
  | [] => ⟨[], rfl, .nil⟩
  | g :: t => by
    obtain ⟨t', h1, h2⟩ := ofType_upd x ty t
    rw [List.map_cons, ofType, seg_own, beq_eq]
    by_cases hg : g.own = x
    · rw [decide_eq_true hg, if_pos rfl]
      refine ⟨⟨x, typeDesc ty g.d, g.ps⟩ :: t', by rw [List.map_cons, h1]; rfl, .cons ⟨hg.symm, ?_⟩ h2⟩
      rw [if_pos hg]; exact ⟨rfl, rfl⟩
    · rw [decide_eq_false hg]
      refine ⟨g :: t', by rw [List.map_cons, h1]; rfl, .cons ⟨rfl, ?_⟩ h2⟩
      rw [if_neg hg]

/-- Other descriptions of the segments of one variable. -/
theorem Ghost.redesc {gl gr gl' gr' : List G} (h : Ghost ru toks st AL AR val ls te a gl gr) {x : Var}
    {F : Desc → Desc} (hl : Upd x (fun g g' => g'.2 = g.2 ∧ g'.1 = F g.1) gl gl')
    (hr : Upd x (fun g g' => g'.2 = g.2 ∧ g'.1 = F g.1) gr gr')
    (hx : ∀ gs, SegsOk ru (val x) gs → SegsOk ru (val x) (gs.map fun g => (F g.1, g.2))) :
    Ghost ru toks st AL AR val ls te ⟨a.cov, gl'.map G.seg, gr'.map G.seg, a.em⟩ gl' gr' := by
  refine h.keep rfl rfl rfl (hl.words ?_) (hr.words ?_) (fun z => (hr.without z).words ?_) h.em ?_
  · intro g g' hg; rw [hg.1]
  · intro g g' hg; rw [hg.1]
  · intro g g' hg; rw [hg.1]
  · intro y
    have hy := h.vars y
    rw [of_append] at hy ⊢
    by_cases hyx : y = x
    · subst hyx
      have hf : List.Forall₂ _ (of y gl ++ of y gr) (of y gl' ++ of y gr') := List.rel_append hl.of hr.of
      generalize of y gl ++ of y gr = gs at hy hf
      generalize of y gl' ++ of y gr' = gs' at hf
      have : gs' = gs.map fun g => (F g.1, g.2) := by
        clear hy
        induction hf with
        | nil => rfl
        | @cons g g' _ _ h1 _ ih =>
          rw [List.map_cons, ih]
          congr 1
          obtain ⟨d, p⟩ := g'
          rw [← h1.1, ← h1.2]
      rw [this]
      exact hx gs hy
    · rw [hl.other hyx, hr.other hyx]
      exact hy

theorem Inv.lenOne (hi : Inv ru toks st AL AR val ls te a) {x : Var} {ns : List Node} (hv : val x = .vec ns)
    (hl : ns.length = 1) : Inv ru toks st AL AR val ls te ⟨a.cov, asOne x a.lw, asOne x a.rw, a.em⟩ := by
  obtain ⟨gl, gr, h⟩ := hi
  obtain ⟨gl', h1, h2⟩ := asOne_upd x gl
  obtain ⟨gr', h3, h4⟩ := asOne_upd x gr
  rw [← h.segl, ← h.segr, ← h1, ← h3]
  refine ⟨gl', gr', h.redesc h2 h4 ?_⟩
  intro gs hs
  rw [hv] at hs ⊢
  cases hs with
  | nil => exact .nil _
  | vec hs _ => exact .vec hs fun _ => hl

theorem slotsOf_filter {ty : NodeType} : ∀ {as : Alts} {m : AI.Mask}, slotsOf ty as = some m →
    slotsOf ty (as.filter fun p => AI.tyEq p.1 ty) = some m
  | [], _, h => by cases h
  | (t, m') :: r, m, h => by
    rw [slotsOf_cons] at h
    by_cases ht : t = ty
    · rw [if_pos ht] at h
      rw [List.filter_cons_of_pos (by exact AI.tyEq_iff.2 ht), slotsOf_cons, if_pos ht]
      exact h
    · rw [if_neg ht] at h
      rw [List.filter_cons_of_neg (by rw [AI.tyEq_iff]; exact ht)]
      exact slotsOf_filter h

theorem Inv.typeIs (hi : Inv ru toks st AL AR val ls te a) {x : Var} {n : Node} (hv : val x = .node n) :
    Inv ru toks st AL AR val ls te ⟨a.cov, ofType x n.ty a.lw, ofType x n.ty a.rw, a.em⟩ := by
  obtain ⟨gl, gr, h⟩ := hi
  obtain ⟨gl', h1, h2⟩ := ofType_upd x n.ty gl
  obtain ⟨gr', h3, h4⟩ := ofType_upd x n.ty gr
  rw [← h.segl, ← h.segr, ← h1, ← h3]
  refine ⟨gl', gr', h.redesc h2 h4 ?_⟩
  intro gs hs
  rw [hv] at hs ⊢
  cases hs with
  | nil => exact .nil _
  | any hs => exact .any hs
  | node hs =>
    refine .node ⟨hs.keys, ?_, ?_, ?_⟩
    · rw [List.flatMap_map]; exact hs.perm
    · rw [List.flatMap_map]; exact hs.held
    · intro g hg
      obtain ⟨g0, hg0, rfl⟩ := List.mem_map.1 hg
      obtain ⟨as, m, h5, h6, h7, h8⟩ := hs.segs g0 hg0
      refine ⟨as.filter fun p => AI.tyEq p.1 n.ty, m, ?_, slotsOf_filter h6, h7, h8⟩
      dsimp only
      rw [h5]
      rfl

theorem Inv.lenZero (hi : Inv ru toks st AL AR val ls te a) {x : Var} (hv : val x = .vec []) :
    Inv ru toks st AL AR val ls te ⟨a.cov, without x a.lw, without x a.rw, (x, none) :: a.em⟩ := by
  obtain ⟨gl, gr, h⟩ := hi
  refine ⟨gwithout x gl, gwithout x gr, h.keep rfl ?_ ?_ ?_ ?_ ?_ ?_ ?_⟩
  · rw [gwithout_seg, h.segl]
  · rw [gwithout_seg, h.segr]
  · exact words_sublist (gwithout_sublist x gl)
  · exact words_sublist (gwithout_sublist x gr)
  · exact fun z => words_sublist (gwithout_gwithout_sublist x z gr)
  · intro y o ho
    dsimp only at ho
    rw [emFind, beq_eq] at ho
    by_cases hy : x = y
    · rw [decide_eq_true hy] at ho
      cases ho
      rw [← hy]
      exact hv
    · rw [decide_eq_false hy] at ho
      exact h.em y o ho
  · intro y
    by_cases hy : y = x
    · subst hy
      rw [noOwn_of_append (noOwn_gwithout _ _) (noOwn_gwithout _ _)]
      exact .nil _
    · rw [of_append, of_gwithout hy, of_gwithout hy, ← of_append]
      exact h.vars y

end Verif.OI
