import Verif.Proofs.OrderOps
import Verif.Proofs.PrecExp
/-! Soundness of the order analysis: expressions and calls. -/
namespace Verif.OI
open Core Spec Interp

variable {ru : Rules} {U : Unicode} {toks : List Token}
variable {st ls te : Nat} {AL AR : List Token} {val val' : Var → Val} {a b : OState}

/-! ### construct_node -/

theorem prints_cnode (t : Token) : Prints (Must ru) (AI.cnode t) [t] := by
  refine .node (AI.cnode t) [(.token, [t])] (List.Perm.refl _) ?_ (List.pairwise_singleton _ _)
  intro p hp
  rw [List.mem_singleton.1 hp]
  exact .token rfl

theorem prints_cnodes : ∀ l : List Token, PrintsAll (Must ru) (l.map AI.cnode) l
  | [] => .nil
  | t :: r => .cons (prints_cnode t) (prints_cnodes r)

theorem slotsOf_allWith {ty : NodeType} {m : AI.Mask} : ∀ {ts : List NodeType}, ty ∈ ts →
    slotsOf ty (allWith m ts) = some m
  | t :: r, h => by
    rw [allWith, slotsOf_cons]
    split
    · rfl
    · next ht =>
      rcases List.mem_cons.1 h with rfl | h
      · exact absurd rfl ht
      · exact slotsOf_allWith h

theorem tokenOk_mem {ty : NodeType} : ∀ {ts : List NodeType}, tokenOk ru ts = true → ty ∈ ts →
    crossOk ru ty (AI.kbit .k_leading_comments) (AI.bit SELF ||| AI.kbit .k_trailing_comments) = true ∧
    crossOk ru ty (AI.bit SELF) (AI.kbit .k_trailing_comments) = true
  | t :: r, h, hm => by
    rw [tokenOk, Bool.and_eq_true, Bool.and_eq_true] at h
    rcases List.mem_cons.1 hm with rfl | hm
    · exact h.1
    · exact tokenOk_mem h.2 hm

/-- The parts of a constructed node. -/
def tokParts (lead : List Token) (t : Token) (trail : List Token) : Parts :=
  (if lead = [] then [] else [(.child .k_leading_comments, lead)]) ++ (.token, [t]) ::
    (if trail = [] then [] else [(.child .k_trailing_comments, trail)])

theorem word_tokParts (lead : List Token) (t : Token) (trail : List Token) :
    word (tokParts lead t trail) = lead ++ t :: trail := by
  unfold word tokParts
  by_cases h1 : lead = [] <;> by_cases h2 : trail = [] <;> simp [h1, h2]

theorem slice_token {s : PS} (hs : s.WF toks) {t : Token} (ht : toks[s.pos]? = some t) :
    Spec.leadingComments toks s.pos ++ t :: trailingComments toks s.pos =
      slice toks (leadStart toks s.pos) (trailEnd toks s.pos) := by
  have hp := hs.inp
  unfold PS.In at hp
  have he : s.pos + 1 ≤ trailEnd toks s.pos := by unfold trailEnd; omega
  rw [← slice_append hs.le (Nat.le_of_succ_le he), ← slice_append (Nat.le_succ s.pos) he]
  have h1 : slice toks s.pos (s.pos + 1) = [t] := by
    unfold slice
    rw [List.take_add_one, ht, List.drop_append]
    have : (toks.take s.pos).length = s.pos := by rw [List.length_take]; omega
    rw [List.drop_eq_nil_of_le (by omega), this, Nat.sub_self]
    rfl
  have h2 : slice toks (s.pos + 1) (trailEnd toks s.pos) = trailingComments toks s.pos := AI.trailing_slice hp
  rw [h1, h2]
  rfl

theorem construct_segs {s : PS} (hs : s.WF toks) {t : Token} {ty : NodeType} {ks : Kids}
    (hk : ents ks = AI.commentEnts toks s.pos) {ts : List NodeType} (hty : ty ∈ ts)
    (hok : tokenOk ru ts = true) :
    NodeSegs ru (.mk (some t) ty ks) [(.node (allWith tokenSlots ts),
      tokParts (Spec.leadingComments toks s.pos) t (trailingComments toks s.pos))] := by
  have hkids : (Node.mk (some t) ty ks).kids = ks := rfl
  have hcl : childrenAt (.mk (some t) ty ks) .k_leading_comments =
      (Spec.leadingComments toks s.pos).map AI.cnode := by
    rw [childrenAt_ents, hkids, hk]
    unfold AI.commentEnts
    by_cases h1 : Spec.leadingComments toks s.pos = [] <;> by_cases h2 : trailingComments toks s.pos = [] <;>
      simp [h1, h2]
  have hct : childrenAt (.mk (some t) ty ks) .k_trailing_comments =
      (trailingComments toks s.pos).map AI.cnode := by
    rw [childrenAt_ents, hkids, hk]
    unfold AI.commentEnts
    by_cases h1 : Spec.leadingComments toks s.pos = [] <;> by_cases h2 : trailingComments toks s.pos = [] <;>
      simp [h1, h2]
  have hmem : ∀ p ∈ tokParts (Spec.leadingComments toks s.pos) t (trailingComments toks s.pos),
      p = (.child .k_leading_comments, Spec.leadingComments toks s.pos) ∨ p = (.token, [t]) ∨
      p = (.child .k_trailing_comments, trailingComments toks s.pos) := by
    intro p hp
    unfold tokParts at hp
    rcases List.mem_append.1 hp with hp | hp
    · split at hp
      · cases hp
      · exact .inl (List.mem_singleton.1 hp)
    · rcases List.mem_cons.1 hp with rfl | hp
      · exact .inr (.inl rfl)
      · split at hp
        · cases hp
        · exact .inr (.inr (List.mem_singleton.1 hp))
  refine ⟨?_, ?_, ?_, ?_⟩
  · rw [hkids, keys_ents, hk]
    unfold AI.commentEnts
    by_cases h1 : Spec.leadingComments toks s.pos = [] <;> by_cases h2 : trailingComments toks s.pos = [] <;>
      simp [h1, h2]
  · rw [List.flatMap_singleton, slots_ents, hkids, hk]
    unfold AI.commentEnts tokParts
    by_cases h1 : Spec.leadingComments toks s.pos = [] <;> by_cases h2 : trailingComments toks s.pos = [] <;>
      simp [h1, h2, entSlots, Node.tok]
    all_goals exact List.Perm.swap _ _ _
  · intro p hp
    rw [List.flatMap_singleton] at hp
    rcases hmem p hp with rfl | rfl | rfl
    · exact .child (by rw [hcl]; exact prints_cnodes _)
    · exact .token rfl
    · exact .child (by rw [hct]; exact prints_cnodes _)
  · intro g hg
    rw [List.mem_singleton.1 hg]
    obtain ⟨h1, h2⟩ := tokenOk_mem hok hty
    refine ⟨_, tokenSlots, rfl, slotsOf_allWith hty, ?_, ?_⟩
    · intro p hp
      rcases hmem p hp with rfl | rfl | rfl <;> dsimp only <;> decide
    · have hfull : Sorted ru ty [(.child .k_leading_comments, Spec.leadingComments toks s.pos), (.token, [t]),
          (.child .k_trailing_comments, trailingComments toks s.pos)] := by
        refine List.Pairwise.cons ?_ (List.Pairwise.cons ?_ (List.pairwise_singleton _ _))
        · intro q hq
          rcases List.mem_cons.1 hq with rfl | hq
          · exact crossOk_spec h1 (by dsimp only; decide) (by dsimp only; decide)
          · rw [List.mem_singleton.1 hq]
            exact crossOk_spec h1 (by dsimp only; decide) (by dsimp only; decide)
        · intro q hq
          rw [List.mem_singleton.1 hq]
          exact crossOk_spec h2 (by dsimp only; decide) (by dsimp only; decide)
      refine List.Pairwise.sublist ?_ hfull
      unfold tokParts
      dsimp only
      refine List.Sublist.append (l₂ := [_]) ?_ (List.Sublist.cons_cons _ ?_)
      · split
        · exact List.nil_sublist _
        · exact .refl _
      · split
        · exact List.nil_sublist _
        · exact .refl _

theorem classify_mem {s : PS} {t : Token} {ty : NodeType} (h : classify U toks s t = .ok ty) :
    ty ∈ unknownTypes := by
  unfold classify at h
  repeat' split at h
  all_goals first | (cases h; done) | (cases h; decide)

theorem count_without (x : Var) : ∀ l : List Seg, count x (without x l) = 0
  | [] => rfl
  | g :: r => by
    rw [without]
    split
    · exact count_without x r
    · next h => rw [count, if_neg h]; exact count_without x r

theorem dropVar_none (x : Var) (a : OState) : count x (dropVar x a).lw = 0 ∧ count x (dropVar x a).rw = 0 ∧
    emFind x (dropVar x a).em = none :=
  ⟨count_without x _, count_without x _, by show emFind x (emWithout x a.em) = none; rw [emFind_without, if_pos rfl]⟩

/-- Add a segment for TMP at the end. -/
theorem Inv.snoc (hi : Inv ru toks st AL AR val ls te a) (hT : count TMP a.lw = 0 ∧ count TMP a.rw = 0 ∧
    emFind TMP a.em = none) {te' : Nat} (hle : endOf a.cov ls te ≤ te') {d : Desc} {p : Parts}
    (hp : (word p).Sublist (slice toks (endOf a.cov ls te) te')) {v : Val} (hv : SegsOk ru v [(d, p)])
    (hv' : val' TMP = v) (ho : ∀ y, y ≠ TMP → val' y = val y) {c : Cov}
    (hc : c = .cov ∨ (c = .fresh TMP ∧ a.cov = .unc)) {ls' : Nat} (hls : c = .fresh TMP → ls' = ls) :
    Inv ru toks st AL AR val' ls' te' ⟨c, a.lw, a.rw ++ [⟨TMP, d⟩], a.em⟩ := by
  obtain ⟨gl, gr, h⟩ := hi
  obtain ⟨h1, h2, h3⟩ := hT
  rw [← h.segl] at h1
  rw [← h.segr] at h2
  have hnl := noOwn_count h1
  have hnr := noOwn_count h2
  have hend : endOf c ls' te' = te' := by rcases hc with rfl | ⟨rfl, _⟩ <;> rfl
  refine ⟨gl, gr ++ [⟨TMP, d, p⟩], h.segl, ?_, h.wl, ?_, ?_, ?_, ?_, ?_⟩
  · rw [List.map_append, h.segr]; rfl
  · dsimp only
    rw [hend, words_append, ← slice_append h.le hle, ← List.append_assoc]
    refine h.wr.append ?_
    rw [words_cons, words_nil, List.append_nil]
    exact hp
  · dsimp only
    rw [hend]
    exact Nat.le_trans h.le hle
  · intro x hx
    dsimp only at hx
    rcases hc with rfl | ⟨rfl, hu⟩
    · cases hx
    · cases hx
      rw [hls rfl, gwithout_append, gwithout_none hnr]
      have : gwithout TMP [(⟨TMP, d, p⟩ : G)] = [] := rfl
      rw [this, List.append_nil]
      have hw := h.wr
      have hl := h.le
      rw [hu] at hw hl
      exact ⟨hw, hl⟩
  · intro x o hx
    dsimp only at hx
    by_cases hxT : x = TMP
    · subst hxT; rw [h3] at hx; cases hx
    · rw [ho x hxT]; exact h.em x o hx
  · intro x
    rw [← List.append_assoc, of_append]
    by_cases hxT : x = TMP
    · subst hxT
      rw [noOwn_of_append hnl hnr, hv', of, if_pos rfl]
      exact hv
    · rw [of, if_neg (Ne.symm hxT), of_nil, List.append_nil, ho x hxT]
      exact h.vars x

theorem Inv.construct {s : PS} (hs : s.WF toks)
    (hi : Inv ru toks st AL AR val (leadStart toks s.pos) (trailEnd toks s.pos) a) {nt : NodeType}
    (hc : aconstruct ru nt a = .ok b) {n : Node} (hn : construct U toks s nt = .ok n)
    (hv' : val' TMP = .node n) (ho : ∀ y, y ≠ TMP → val' y = val y) :
    Inv ru toks st AL AR val' (leadStart toks s.pos) (trailEnd toks s.pos) b := by
  unfold aconstruct at hc
  split at hc
  · cases hc
  · next hE =>
    split at hc
    · cases hc
    · next a1 ha1 =>
      dsimp only at hc
      generalize hts : (if AI.tyEq nt .Unknown then unknownTypes else [nt]) = ts at hc
      split at hc
      · next hok =>
        cases hc
        obtain ⟨hi1, hu⟩ := hi.uncover ha1
        have hi2 := hi1.drop TMP (val' := val) (fun _ _ => rfl)
        obtain ⟨t, ht, hcase⟩ := construct_ok hn
        have htok := AI.getToken_zero hs.inp ht
        have hnode : ∃ ty ks, n = .mk (some t) ty ks ∧ ents ks = AI.commentEnts toks s.pos ∧
            ty ∈ ts := by
          rw [← hts]
          rcases hcase with ⟨rfl, _⟩ | ⟨rfl, ty, hcl, hat⟩ | ⟨_, hne, hat⟩
          · exact absurd rfl hE
          · obtain ⟨ks, h1, h2⟩ := AI.attach_spec hs (some t) ty
            have : attachComments toks s (Node.new t ty) = .ok (.mk (some t) ty ks) := h1
            rw [this] at hat
            refine ⟨ty, ks, by simpa using hat.symm, h2, ?_⟩
            rw [if_pos (AI.tyEq_iff.2 rfl)]
            exact classify_mem hcl
          · obtain ⟨ks, h1, h2⟩ := AI.attach_spec hs (some t) nt
            have : attachComments toks s (Node.new t nt) = .ok (.mk (some t) nt ks) := h1
            rw [this] at hat
            refine ⟨nt, ks, by simpa using hat.symm, h2, ?_⟩
            rw [if_neg (by rw [AI.tyEq_iff]; exact hne)]
            exact List.mem_singleton_self _
        obtain ⟨ty, ks, rfl, hk, hty⟩ := hnode
        have hseg := construct_segs (t := t) hs hk hty hok
        have hcov : (dropVar TMP a1).cov = .unc := hu
        have hp := hs.inp
        unfold PS.In at hp
        have he : leadStart toks s.pos ≤ trailEnd toks s.pos := by
          have := hs.le
          unfold trailEnd
          omega
        refine hi2.snoc (dropVar_none TMP a1) (v := .node _) ?_ ?_ (.node hseg) hv' ho
          (.inr ⟨rfl, hcov⟩) (fun _ => rfl)
        · rw [hcov]; exact he
        · rw [hcov, word_tokParts, slice_token hs htok]
          exact .refl _
      · cases hc

/-! ### Calls -/

/-- What a result says. -/
def ResOk (ru : Rules) (AL W : List Token) : Res → Val → Prop
  | .node as, v => ∃ n PL PR, v = .node n ∧
      NodeSegs ru n [(.node (leftAlts as), PL), (.node (rightAlts as), PR)] ∧
      (word PL).Sublist AL ∧ (word PR).Sublist W
  | .vec as, v => ∃ ns w, v = .vec ns ∧ VecOk ru as ns w ∧ w.Sublist W

/-- The arguments are known as far as the entry says. -/
def BoolsFit (bs : List (Option Bool)) (vs : List Val) : Prop :=
  ∀ (i : Nat) (b : Bool), bs[i]? = some (some b) → vs[i]? = some (Val.bool b)

/-- The arguments of a call for an entry. -/
def ArgOk (ru : Rules) (AL AR : List Token) (vs : List Val) : Option (Bool × Desc) → Prop
  | none => AL = [] ∧ AR = []
  | some (l, d) => ∃ v0 r p, vs = v0 :: r ∧ SegsOk ru v0 [(d, p)] ∧
      (if l then AL = [] ∧ AR = word p else AL = word p ∧ AR = [])

/-- The first token that a call may use. -/
def startOf (toks : List Token) (used : Bool) (ps : PS) : Nat :=
  if used then trailEnd toks ps.pos else leadStart toks ps.pos

/-- Calls do what the entries say. -/
def CallOk (ru : Rules) (toks : List Token) (T : Fn → List Entry) (call : Fn → List Val → PS → Out (Val × PS)) :
    Prop :=
  ∀ f, ∀ e ∈ T f, ∀ vs ps v ps' AL AR, ps.WF toks → ArgOk ru AL AR vs e.arg → BoolsFit e.bools vs →
    call f vs ps = .ok (v, ps') →
    ps'.WF toks ∧ startOf toks e.used ps ≤ trailEnd toks ps'.pos ∧
      ResOk ru AL (AR ++ slice toks (startOf toks e.used ps) (trailEnd toks ps'.pos)) e.res v

/-- The Boolean parameters have their values. -/
def BoolsOk (B : Bools) (env : Env) : Prop := ∀ x b, boolOf x B = some b → env x = .bool b

theorem evalAtoms_cons {env : Env} {x : Atom} {r : List Atom} {vs : List Val}
    (h : evalAtoms env (x :: r) = .ok vs) :
    ∃ v vs', vs = v :: vs' ∧ evalAtom env x = .ok v ∧ evalAtoms env r = .ok vs' := by
  unfold evalAtoms at h
  obtain ⟨v, h1, h⟩ := PI.bind_ok h
  obtain ⟨vs', h2, h⟩ := PI.bind_ok h
  cases h
  exact ⟨v, vs', rfl, h1, h2⟩

theorem boolArgs_fit {B : Bools} {env : Env} (hB : BoolsOk B env) : ∀ {args : List Atom} {vs : List Val},
    evalAtoms env args = .ok vs → BoolsFit (boolArgs B args) vs
  | [], vs, _ => by intro i b h; simp [boolArgs] at h
  | x :: r, vs, h => by
    obtain ⟨v, vs', rfl, h1, h2⟩ := evalAtoms_cons h
    have ih := boolArgs_fit hB h2
    intro i b hi
    cases i with
    | zero =>
      have : evalAtom env x = .ok (.bool b) := by
        cases x with
        | bool b' => simp [boolArgs] at hi; subst hi; rfl
        | var x =>
          simp [boolArgs] at hi
          show Out.ok (env x) = _
          rw [hB x b hi]
        | notVar x =>
          simp only [boolArgs, List.getElem?_cons_zero, Option.some.injEq] at hi
          split at hi
          · next b' hb =>
            have : (!b') = b := by simpa using hi
            show (match env x with | Val.bool b => Out.ok (Val.bool !b) | _ => Out.panic Panic.stuck) = _
            rw [hB x b' hb]
            dsimp only
            rw [this]
          · cases hi
        | nat n => simp [boolArgs] at hi
        | kws ks => simp [boolArgs] at hi
        | strEq x k => simp [boolArgs] at hi
      rw [this] at h1
      cases h1
      rfl
    | succ i =>
      rw [List.getElem?_cons_succ]
      refine ih i b ?_
      cases x <;> simpa [boolArgs] using hi

theorem boolsLe_spec : ∀ {l l' : List (Option Bool)} {vs : List Val}, boolsLe l l' = true → BoolsFit l vs →
    BoolsFit l' vs
  | _, [], vs, _, _ => by intro i b h; simp at h
  | [], _ :: _, vs, h, _ => by cases h
  | o :: r, none :: r', vs, h, hf => by
    intro i b hi
    cases i with
    | zero => simp at hi
    | succ i =>
      rw [boolsLe] at h
      cases vs with
      | nil =>
        have := boolsLe_spec (vs := []) h (by
          intro j c hj
          have := hf (j + 1) c (by simpa using hj)
          simp at this) i b (by simpa using hi)
        simp at this
      | cons v vs =>
        rw [List.getElem?_cons_succ]
        exact boolsLe_spec h (by
          intro j c hj
          have := hf (j + 1) c (by simpa using hj)
          simpa using this) i b (by simpa using hi)
  | some c :: r, some c' :: r', vs, h, hf => by
    simp only [boolsLe, Bool.and_eq_true, beq_iff_eq] at h
    obtain ⟨rfl, h⟩ := h
    intro i b hi
    cases i with
    | zero => exact hf 0 b hi
    | succ i =>
      cases vs with
      | nil =>
        have := hf 0 c rfl
        simp at this
      | cons v vs =>
        rw [List.getElem?_cons_succ]
        exact boolsLe_spec h (by
          intro j c hj
          have := hf (j + 1) c (by simpa using hj)
          simpa using this) i b (by simpa using hi)
  | none :: _, some _ :: _, vs, h, _ => by simp [boolsLe] at h

theorem NodeSegs.dropNil {n : Node} {d : Desc} {gs : List DP} (h : NodeSegs ru n ((d, []) :: gs)) :
    NodeSegs ru n gs where
  keys := h.keys
  perm := by have := h.perm; rwa [List.flatMap_cons, List.nil_append] at this
  held := by have := h.held; rwa [List.flatMap_cons, List.nil_append] at this
  segs := fun g hg => h.segs g (List.mem_cons_of_mem _ hg)

theorem noLeft_slots {ty : NodeType} {m : AI.Mask} : ∀ {as : List (NodeType × AI.Mask × AI.Mask)},
    noLeft as = true → slotsOf ty (leftAlts as) = some m → m = 0
  | [], _, h => by cases h
  | (t, m1, m2) :: r, hn, h => by
    rw [noLeft, Bool.and_eq_true] at hn
    rw [leftAlts, slotsOf_cons] at h
    split at h
    · cases h; exact beq_iff.1 hn.1
    · exact noLeft_slots hn.2 h

theorem noLeft_spec {as : List (NodeType × AI.Mask × AI.Mask)} (hn : noLeft as = true) {n : Node} {PL PR : Parts}
    (h : NodeSegs ru n [(.node (leftAlts as), PL), (.node (rightAlts as), PR)]) :
    NodeSegs ru n [(.node (rightAlts as), PR)] := by
  obtain ⟨as', m, h1, h2, h3, _⟩ := h.segs _ List.mem_cons_self
  cases h1
  obtain rfl := noLeft_slots hn h2
  have : PL = [] := by
    cases PL with
    | nil => rfl
    | cons p r =>
      have := h3 p List.mem_cons_self
      simp at this
  subst this
  exact h.dropNil

theorem startOf_le {s : PS} (hs : s.WF toks) (u : Bool) : startOf toks u s ≤ trailEnd toks s.pos := by
  unfold startOf
  split
  · exact Nat.le_refl _
  · have := hs.le
    unfold trailEnd
    omega

/-- After a call without node argument. -/
theorem Inv.applyNone (hi : Inv ru toks st AL AR val ls te a) (hT : count TMP a.lw = 0 ∧ count TMP a.rw = 0 ∧
    emFind TMP a.em = none) {e : Entry} (h : applyEntry ru e false none a = .ok b) {te' ls' : Nat} {v : Val}
    (hle : endOf a.cov ls te ≤ te') (hr : ResOk ru [] ([] ++ slice toks (endOf a.cov ls te) te') e.res v)
    (hv' : val' TMP = v) (ho : ∀ y, y ≠ TMP → val' y = val y) :
    Inv ru toks st AL AR val' ls' te' b := by
  unfold applyEntry at h
  rw [List.nil_append] at hr
  cases hres : e.res with
  | node as =>
    rw [hres] at h hr
    dsimp only at h
    split at h
    · next hn =>
      cases h
      obtain ⟨n, PL, PR, rfl, h1, _, h3⟩ := hr
      exact hi.snoc hT hle h3 (.node (noLeft_spec hn h1)) hv' ho (.inl rfl) (by intro h; cases h)
    · cases h
  | vec as =>
    rw [hres] at h hr
    cases h
    obtain ⟨ns, w, rfl, h1, h2⟩ := hr
    have hw : word [(Slot.token, w)] = w := by simp [word]
    exact hi.snoc hT hle (p := [(.token, w)]) (by rw [hw]; exact h2)
      (.vec (by rw [hw]; exact h1) (by intro h; cases h)) hv' ho (.inl rfl) (by intro h; cases h)

/-- After a call whose argument stands last. -/
theorem Inv.applyLast (hi : Inv ru toks st AL AR val ls te a) (hT : count TMP a.lw = 0 ∧ count TMP a.rw = 0 ∧
    emFind TMP a.em = none) {x : Var} (hxT : x ≠ TMP) (hcx : count x a.lw + count x a.rw = 1)
    (hlast : lastOf x a.rw = true) :
    ∃ A, SegsOk ru (val x) [(descOf x a, A)] ∧
      ∀ {e : Entry}, applyEntry ru e true (some x) a = .ok b → ∀ {te' ls' : Nat} {v : Val},
        endOf a.cov ls te ≤ te' → ResOk ru [] (word A ++ slice toks (endOf a.cov ls te) te') e.res v →
        val' TMP = v → (∀ y, y ≠ TMP → val' y = val y) → Inv ru toks st AL AR val' ls' te' b := by
  obtain ⟨gl, gr, h⟩ := hi
  obtain ⟨g, hg, hgx⟩ : ∃ g, a.rw.getLast? = some g ∧ g.own = x := by
    unfold lastOf at hlast
    split at hlast
    · next g hg => exact ⟨g, hg, beq_iff.1 hlast⟩
    · cases hlast
  rw [← h.segr] at hg
  obtain ⟨t, ht, rfl⟩ : ∃ t, gr.getLast? = some t ∧ t.seg = g := by
    rw [List.getLast?_map] at hg
    cases hgr : gr.getLast? with
    | none => rw [hgr] at hg; cases hg
    | some t => rw [hgr] at hg; exact ⟨t, rfl, by simpa using hg⟩
  obtain ⟨gr0, rfl⟩ : ∃ gr0, gr = gr0 ++ [t] := by
    rcases List.eq_nil_or_concat gr with rfl | ⟨l, u, rfl⟩
    · cases ht
    · simp at ht
      exact ⟨l, by rw [List.concat_eq_append, ht]⟩
  have htx : t.own = x := hgx
  rw [← h.segl, ← h.segr, List.map_append, count_append] at hcx
  have hc1 : count x ([t].map G.seg) = 1 := by
    show (if Nat.beq t.own x then count x [] + 1 else count x []) = 1
    rw [if_pos (beq_iff.2 htx)]
    rfl
  have hnl : NoOwn x gl := noOwn_count (by omega)
  have hnr : NoOwn x gr0 := noOwn_count (by omega)
  obtain ⟨hT1, hT2, hT3⟩ := hT
  rw [← h.segl] at hT1
  rw [← h.segr] at hT2
  have hTl := noOwn_count hT1
  have hTr := (noOwn_append.1 (noOwn_count hT2)).1
  have hX : SegsOk ru (val x) [(t.d, t.ps)] := by
    have := h.vars x
    rwa [of_append, of_none hnl, of_append, of_none hnr, of, if_pos htx] at this
  refine ⟨t.ps, ?_, ?_⟩
  · unfold descOf
    rw [← h.segl, find_none hnl, ← h.segr, find_mid hnr htx]
    exact hX
  · intro e he te' ls' v hle hr hv' ho
    unfold applyEntry at he
    cases hres : e.res with
    | vec as => rw [hres] at he; cases he
    | node as =>
      rw [hres] at he hr
      dsimp only at he
      rw [if_pos rfl] at he
      split at he
      · next hn =>
        cases he
        obtain ⟨n, PL, PR, rfl, h1, _, h3⟩ := hr
        have h4 := noLeft_spec hn h1
        refine ⟨gl, gr0 ++ [⟨TMP, .node (rightAlts as), PR⟩], h.segl, ?_, h.wl, ?_, ?_, ?_, ?_, ?_⟩
        · dsimp only
          rw [← h.segr, ← gwithout_seg, gwithout_append, gwithout_none hnr]
          have : gwithout x [t] = [] := by
            unfold gwithout
            rw [List.filter_cons_of_neg (by simp [htx])]
            rfl
          rw [this, List.append_nil, List.map_append]
          rfl
        · dsimp only [endOf]
          rw [words_append, ← slice_append h.le hle, ← List.append_assoc]
          have hw := h.wr
          rw [words_append] at hw
          refine List.Sublist.trans ?_ (hw.append (.refl _))
          rw [List.append_assoc]
          refine (List.Sublist.refl _).append ?_
          rw [words_cons, words_cons, words_nil, List.append_nil, List.append_nil]
          exact h3
        · exact Nat.le_trans h.le hle
        · intro y hy; cases hy
        · intro y o hy
          dsimp only at hy
          by_cases hyT : y = TMP
          · subst hyT; rw [hT3] at hy; cases hy
          · rw [ho y hyT]; exact h.em y o hy
        · intro y
          have hy := h.vars y
          rw [of_append, of_append, of] at hy ⊢
          dsimp only
          by_cases hyT : y = TMP
          · subst hyT
            rw [if_pos rfl, of_none hTl, of_none hTr, hv']
            exact .node h4
          · rw [if_neg (Ne.symm hyT), ho y hyT]
            by_cases hyx : y = x
            · subst hyx
              rw [of_none hnl, of_none hnr]
              exact .nil _
            · rw [if_neg (by rw [htx]; exact Ne.symm hyx)] at hy
              exact hy
      · cases he

/-- After a call whose argument stands anywhere. -/
theorem Inv.applyLeft (hi : Inv ru toks st AL AR val ls te a) (hT : count TMP a.lw = 0 ∧ count TMP a.rw = 0 ∧
    emFind TMP a.em = none) {x : Var} (hxT : x ≠ TMP) (hcx : count x a.lw + count x a.rw = 1) :
    ∃ A, SegsOk ru (val x) [(descOf x a, A)] ∧
      ∀ {e : Entry}, applyEntry ru e false (some x) a = .ok b → ∀ {te' ls' : Nat} {v : Val},
        endOf a.cov ls te ≤ te' → ResOk ru (word A) ([] ++ slice toks (endOf a.cov ls te) te') e.res v →
        val' TMP = v → (∀ y, y ≠ TMP → val' y = val y) → Inv ru toks st AL AR val' ls' te' b := by
  obtain ⟨gl, gr, h⟩ := hi
  rw [← h.segl, ← h.segr] at hcx
  obtain ⟨t, rest, ht, hperm, hno, hfind, hrep⟩ := pick hcx
  obtain ⟨hT1, hT2, hT3⟩ := hT
  rw [← h.segl] at hT1
  rw [← h.segr] at hT2
  have hTn : NoOwn TMP (gl ++ gr) := noOwn_append.2 ⟨noOwn_count hT1, noOwn_count hT2⟩
  have hTrest : NoOwn TMP rest := fun g hg => perm_noOwn hperm hTn g (List.mem_cons_of_mem _ hg)
  have hX : SegsOk ru (val x) [(t.d, t.ps)] := by
    have := (h.vars x).of_perm (of_perm hperm x)
    rwa [of, if_pos ht, of_none hno] at this
  refine ⟨t.ps, ?_, ?_⟩
  · unfold descOf
    rw [← h.segl, ← h.segr]
    rcases hfind with ⟨hf, _⟩ | ⟨hf, hf'⟩
    · rw [hf]; exact hX
    · rw [hf, hf']; exact hX
  · intro e he te' ls' v hle hr hv' ho
    rw [List.nil_append] at hr
    unfold applyEntry at he
    cases hres : e.res with
    | vec as => rw [hres] at he; cases he
    | node as =>
      rw [hres] at he hr
      dsimp only at he
      rw [if_neg (by simp)] at he
      obtain ⟨n, PL, PR, rfl, h1, h2, h3⟩ := hr
      obtain ⟨gl', gr', h4, h5, h6, h7, h8⟩ := hrep ⟨TMP, .node (leftAlts as), PL⟩ h2
      have hu : (⟨TMP, .node (leftAlts as), PL⟩ : G).seg = ⟨TMP, .node (leftAlts as)⟩ := rfl
      rw [hu] at h4 h5
      rw [← h.segl, ← h.segr, ← h4, ← h5] at he
      split at he
      · cases he
      · next l hl =>
        have hsn : gr'.map G.seg ++ [(⟨TMP, .node (rightAlts as)⟩ : Seg)] =
            (gr' ++ [(⟨TMP, .node (rightAlts as), PR⟩ : G)]).map G.seg := by rw [List.map_append]; rfl
        rw [hsn] at he
        split at he
        · cases he
        · next r hr' =>
          cases he
          obtain ⟨gl2, gr2, h9, h10, h11, h12, h13⟩ := compact_both hl hr'
          refine ⟨gl2, gr2, h9, h10, ?_, ?_, ?_, ?_, ?_, ?_⟩
          · rw [h11]; exact h7.trans h.wl
          · dsimp only [endOf]
            rw [h12, words_append, ← slice_append h.le hle, ← List.append_assoc]
            refine (h8.trans h.wr).append ?_
            rw [words_cons, words_nil, List.append_nil]
            exact h3
          · exact Nat.le_trans h.le hle
          · intro y hy; cases hy
          · intro y o hy
            dsimp only at hy
            by_cases hyT : y = TMP
            · subst hyT; rw [hT3] at hy; cases hy
            · rw [ho y hyT]; exact h.em y o hy
          · intro y
            refine h13 y _ ?_
            rw [← List.append_assoc, of_append]
            have hp := of_perm h6 y
            rw [of] at hp
            dsimp only at hp
            rw [of]
            dsimp only
            by_cases hyT : y = TMP
            · subst hyT
              rw [if_pos rfl, of_none hTrest] at hp
              rw [if_pos rfl, ← List.singleton_perm.1 hp.symm, hv']
              exact .node h1
            · rw [if_neg (Ne.symm hyT)] at hp ⊢
              rw [of_nil, List.append_nil, ho y hyT]
              refine SegsOk.of_perm ?_ hp.symm
              by_cases hyx : y = x
              · subst hyx
                rw [of_none hno]
                exact .nil _
              · have h14 := of_perm hperm y
                rw [of, if_neg (by rw [ht]; exact Ne.symm hyx)] at h14
                exact (h.vars y).of_perm h14

theorem fits_none {used : Bool} {bs : List (Option Bool)} {e : Entry} (h : e.fits used bs none = true) :
    used = e.used ∧ boolsLe bs e.bools = true ∧ e.arg = none := by
  unfold Entry.fits at h
  rw [Bool.and_eq_true, Bool.and_eq_true, _root_.beq_iff_eq] at h
  obtain ⟨⟨h1, h2⟩, h3⟩ := h
  refine ⟨h1, h2, ?_⟩
  cases ha : e.arg with
  | none => rfl
  | some p => rw [ha] at h3; cases h3

theorem fits_some {used : Bool} {bs : List (Option Bool)} {e : Entry} {l : Bool} {d : Desc}
    (h : e.fits used bs (some (l, d)) = true) :
    used = e.used ∧ boolsLe bs e.bools = true ∧ ∃ l' d', e.arg = some (l', d') ∧ (l' = true → l = true) ∧
      d.le d' = true := by
  unfold Entry.fits at h
  rw [Bool.and_eq_true, Bool.and_eq_true, _root_.beq_iff_eq] at h
  obtain ⟨⟨h1, h2⟩, h3⟩ := h
  refine ⟨h1, h2, ?_⟩
  cases ha : e.arg with
  | none => rw [ha] at h3; cases h3
  | some p =>
    rw [ha] at h3
    obtain ⟨l', d'⟩ := p
    dsimp only at h3
    rw [Bool.and_eq_true] at h3
    refine ⟨l', d', rfl, ?_, h3.2⟩
    rintro rfl
    simpa using h3.1

theorem segLe_one {d d' : Desc} (h : d.le d' = true) : segLe 1 d d' = true := by
  unfold segLe
  rw [h, Bool.true_and]
  split <;> rfl

theorem count_sub (y x : Var) : ∀ {l : List Seg}, count y l = 0 → count y (without x l) = 0
  | [], _ => rfl
  | g :: r, h => by
    rw [count] at h
    split at h
    · cases h
    · next hg =>
      rw [without]
      split
      · exact count_sub y x h
      · rw [count, if_neg hg]; exact count_sub y x h

theorem uncover_count (hu : uncover a = .ok b)
    (h : count TMP a.lw = 0 ∧ count TMP a.rw = 0 ∧ emFind TMP a.em = none) :
    count TMP b.lw = 0 ∧ count TMP b.rw = 0 ∧ emFind TMP b.em = none := by
  unfold OI.uncover at hu
  split at hu
  · cases hu; exact h
  · cases hu
  · next x hc =>
    split at hu
    · cases hu
      refine ⟨count_sub _ _ h.1, count_sub _ _ h.2.1, ?_⟩
      show emFind TMP (emWithout x a.em) = none
      rw [emFind_without, h.2.2]
      split <;> rfl
    · cases hu

/-- Calls. -/
theorem acall_sound {T : Fn → List Entry} {call : Fn → List Val → PS → Out (Val × PS)} (hcall : CallOk ru toks T call)
    {B : Bools} {f : Fn} {args : List Atom} {s : St} (hs : s.ps.WF toks) (hB : BoolsOk B s.env)
    (hval : ∀ x, low x = true → val x = s.env x)
    (hi : Inv ru toks st AL AR val (leadStart toks s.ps.pos) (trailEnd toks s.ps.pos) a)
    (hc : acall ru T B f args a = .ok b) {vs : List Val} (hvs : evalAtoms s.env args = .ok vs) {v : Val} {ps' : PS}
    (hf : call f vs s.ps = .ok (v, ps')) (hv' : val' TMP = v) (ho : ∀ y, y ≠ TMP → val' y = val y) :
    ps'.WF toks ∧ Inv ru toks st AL AR val' (leadStart toks ps'.pos) (trailEnd toks ps'.pos) b := by
  have hi' := hi.drop (val' := val) TMP (fun _ _ => rfl)
  have hT := dropVar_none TMP a
  have hfit := boolArgs_fit hB hvs
  unfold acall at hc
  dsimp only at hc
  generalize dropVar TMP a = a' at hc hi' hT
  have key : ∀ {u : Bool} {a' : OState}, Inv ru toks st AL AR val (leadStart toks s.ps.pos) (trailEnd toks s.ps.pos) a' →
      (count TMP a'.lw = 0 ∧ count TMP a'.rw = 0 ∧ emFind TMP a'.em = none) →
      endOf a'.cov (leadStart toks s.ps.pos) (trailEnd toks s.ps.pos) = startOf toks u s.ps →
      callWith ru T f u (boolArgs B args) none none a' = .ok b →
      ps'.WF toks ∧ Inv ru toks st AL AR val' (leadStart toks ps'.pos) (trailEnd toks ps'.pos) b := by
    intro u a' hi' hT hend hc
    unfold callWith at hc
    split at hc
    · cases hc
    · next e he =>
      obtain ⟨h1, h2, h3⟩ := fits_none (List.find?_some he)
      have hem := List.mem_of_find?_eq_some he
      subst h1
      rw [h3] at hc
      obtain ⟨k1, k2, k3⟩ := hcall f e hem vs s.ps v ps' [] [] hs (by rw [h3]; exact ⟨rfl, rfl⟩)
        (boolsLe_spec h2 hfit) hf
      rw [← hend] at k2 k3
      exact ⟨k1, hi'.applyNone hT hc k2 k3 hv' ho⟩
  split at hc
  · split at hc
    · next hcov => exact key (u := false) hi' hT (by rw [hcov]; rfl) hc
    · next hcov => exact key (u := true) hi' hT (by rw [hcov]; rfl) hc
    · split at hc
      · cases hc
      · next a2 hu =>
        obtain ⟨k1, k2⟩ := hi'.uncover hu
        refine key (u := false) k1 ?_ (by rw [k2]; rfl) hc
        exact uncover_count hu hT
  · next x hx =>
    split at hc
    · next h1 =>
      replace h1 := beq_iff.1 h1
      have hend : endOf a'.cov (leadStart toks s.ps.pos) (trailEnd toks s.ps.pos) =
          startOf toks (usedOf a'.cov) s.ps := by
        generalize a'.cov = c
        cases c <;> rfl
      obtain ⟨r, rfl, hlow⟩ : ∃ r, args = .var x :: r ∧ low x = true := by
        unfold nodeArg at hx
        split at hx
        · next y r =>
          split at hx
          · cases hx
          · next hn =>
            cases hx
            refine ⟨r, rfl, ?_⟩
            cases hl : low x with
            | true => rfl
            | false => rw [hl] at hn; simp at hn
        · cases hx
      obtain ⟨v0, vs', rfl, hv0, _⟩ := evalAtoms_cons hvs
      obtain rfl : v0 = val x := by
        rw [hval x hlow]
        have : Out.ok (s.env x) = Out.ok v0 := hv0
        cases this
        rfl
      have hxT := (low_ne hlow).1
      unfold callWith at hc
      split at hc
      · cases hc
      · next e he =>
        obtain ⟨h2, h3, l', d', h4, h5, h6⟩ := fits_some (List.find?_some he)
        have hem := List.mem_of_find?_eq_some he
        rw [h4] at hc
        cases l' with
        | true =>
          obtain ⟨A, k1, k2⟩ := hi'.applyLast (val' := val') hT hxT h1 (h5 rfl)
          obtain ⟨j1, j2, j3⟩ := hcall f e hem _ s.ps v ps' [] (word A) hs (by
            rw [h4]
            exact ⟨_, _, A, rfl, k1.mono (.cons ⟨rfl, segLe_one h6⟩ .nil), rfl, rfl⟩) (boolsLe_spec h3 hfit) hf
          rw [← h2, ← hend] at j2 j3
          exact ⟨j1, k2 hc j2 j3 hv' ho⟩
        | false =>
          obtain ⟨A, k1, k2⟩ := hi'.applyLeft (val' := val') hT hxT h1
          obtain ⟨j1, j2, j3⟩ := hcall f e hem _ s.ps v ps' (word A) [] hs (by
            rw [h4]
            exact ⟨_, _, A, rfl, k1.mono (.cons ⟨rfl, segLe_one h6⟩ .nil), rfl, rfl⟩) (boolsLe_spec h3 hfit) hf
          rw [← h2, ← hend] at j2 j3
          exact ⟨j1, k2 hc j2 j3 hv' ho⟩
    · cases hc

/-! ### Expressions -/

/-- A state describes the variables; `R`: the nodes that a loop over a vector still has to visit. -/
def Ok (ru : Rules) (toks : List Token) (st : Nat) (AL AR : List Token) (B : Bools) (R : Val) (a : OState)
    (s : St) : Prop :=
  s.ps.WF toks ∧ BoolsOk B s.env ∧ ∃ val : Var → Val, (∀ x, low x = true → val x = s.env x) ∧ val REST = R ∧
    Inv ru toks st AL AR val (leadStart toks s.ps.pos) (trailEnd toks s.ps.pos) a

/-- The same after an expression with value `v`. -/
def OkVal (ru : Rules) (toks : List Token) (st : Nat) (AL AR : List Token) (B : Bools) (R : Val) (a : OState)
    (s : St) (v : Val) : Prop :=
  s.ps.WF toks ∧ BoolsOk B s.env ∧ ∃ val : Var → Val, (∀ x, low x = true → val x = s.env x) ∧ val REST = R ∧
    val TMP = v ∧ Inv ru toks st AL AR val (leadStart toks s.ps.pos) (trailEnd toks s.ps.pos) a

/-- The values after a step. -/
def upd (val : Var → Val) (env : Env) (v : Val) : Var → Val :=
  fun y => if y = TMP then v else if low y = true then env y else val y

theorem upd_tmp {env : Env} {v : Val} : upd val env v TMP = v := if_pos rfl

theorem low_tmp : low TMP = false := by decide

theorem upd_low {env : Env} {v : Val} {x : Var} (h : low x = true) : upd val env v x = env x := by
  unfold upd
  rw [if_neg (low_ne h).1, if_pos h]

theorem upd_rest {env : Env} {v : Val} : upd val env v REST = val REST := by
  unfold upd
  rw [if_neg (by decide), if_neg (by decide)]

theorem upd_other {env : Env} {v : Val} {x : Var} (h : low x = true → val x = env x) (hx : x ≠ TMP) :
    upd val env v x = val x := by
  unfold upd
  rw [if_neg hx]
  split
  · next hl => exact (h hl).symm
  · rfl

theorem BoolsOk.set {B : Bools} {env : Env} (h : BoolsOk B env) {x : Var} (hx : ∀ b, boolOf x B ≠ some b) (v : Val) :
    BoolsOk B (env.set x v) := by
  intro y b hy
  unfold Env.set
  split
  · next he => subst he; exact absurd hy (hx b)
  · exact h y b hy

theorem BoolsOk.none {B : Bools} {env : Env} (h : BoolsOk B env) {x : Var} (hx : ∀ b, env x ≠ .bool b) :
    ∀ b, boolOf x B ≠ some b := fun b hb => hx b (h x b hb)

theorem set_self {env : Env} {x : Var} {v : Val} : env.set x v x = v := if_pos rfl

theorem set_other {env : Env} {x y : Var} {v : Val} (h : y ≠ x) : env.set x v y = env y := if_neg h

theorem Inv.emptyTmp (hi : Inv ru toks st AL AR val ls te a) {o : Option NodeType} (hT : val' TMP = emVal o)
    (ho : ∀ y, y ≠ TMP → val' y = val y) :
    Inv ru toks st AL AR val' ls te { dropVar TMP a with em := (TMP, o) :: (dropVar TMP a).em } := by
  obtain ⟨gl, gr, h⟩ := hi.drop (val' := val') TMP ho
  refine ⟨gl, gr, h.segl, h.segr, h.wl, h.wr, h.le, h.fresh, ?_, h.vars⟩
  intro x o' hx
  rw [emFind] at hx
  split at hx
  · next hb =>
    cases hx
    rw [← beq_iff.1 hb, hT]
  · exact h.em x o' hx

theorem aeval_sound {T : Fn → List Entry} {C : Ctx} (hC : C.toks = toks) (hcall : CallOk ru toks T C.call)
    {B : Bools} {R : Val} {e : Exp} {s s' : St} {v : Val} (h : Ok ru toks st AL AR B R a s)
    (ha : aeval ru T B e a = .ok b) (he : evalExp C s e = .ok (v, s')) : OkVal ru toks st AL AR B R b s' v := by
  subst hC
  obtain ⟨hs, hB, val, hval, hR, hi⟩ := h
  have hup : ∀ {w : Val}, ∀ y, y ≠ TMP → upd val s.env w y = val y := fun y hy => upd_other (hval y) hy
  have hdrop : ∀ {w : Val}, OkVal ru C.toks st AL AR B R (dropVar TMP a) s w := fun {w} =>
    ⟨hs, hB, upd val s.env w, fun x hx => upd_low hx, by rw [upd_rest, hR], upd_tmp, hi.drop TMP hup⟩
  cases e with
  | var y =>
    cases he
    simp only [aeval] at ha
    split at ha
    · next hl =>
      cases ha
      refine ⟨hs, hB, upd val s.env (s.env y), fun x hx => upd_low hx, by rw [upd_rest, hR], upd_tmp, ?_⟩
      refine hi.rename (low_ne hl).1 ?_ ?_
      · rw [upd_tmp, hval y hl]
      · exact fun z _ hz => hup z hz
    · cases ha
  | construct nt =>
    simp only [evalExp] at he
    obtain ⟨n, hn, he⟩ := PI.bind_ok he
    cases he
    exact ⟨hs, hB, upd val s.env (.node n), fun x hx => upd_low hx, by rw [upd_rest, hR], upd_tmp,
      hi.construct hs ha hn upd_tmp hup⟩
  | empty nt =>
    cases he
    cases ha
    exact ⟨hs, hB, upd val s.env (.node (Node.empty nt)), fun x hx => upd_low hx, by rw [upd_rest, hR], upd_tmp,
      hi.emptyTmp upd_tmp hup⟩
  | call f args =>
    simp only [evalExp] at he
    obtain ⟨vs, hvs, he⟩ := PI.bind_ok he
    obtain ⟨r, hr, he⟩ := PI.bind_ok he
    obtain ⟨r1, r2⟩ := r
    obtain ⟨rfl, rfl⟩ : r1 = v ∧ { s with ps := r2 } = s' := by simpa using he
    obtain ⟨k1, k2⟩ := acall_sound (val' := upd val s.env r1) hcall hs hB hval hi ha hvs hr upd_tmp hup
    exact ⟨k1, hB, upd val s.env r1, fun x hx => upd_low hx, by rw [upd_rest, hR], upd_tmp, k2⟩
  | nilVec =>
    cases ha; cases he
    exact ⟨hs, hB, upd val s.env (.vec []), fun x hx => upd_low hx, by rw [upd_rest, hR], upd_tmp,
      hi.emptyTmp upd_tmp hup⟩
  | pop y =>
    simp only [evalExp] at he
    split at he
    · next ns hns =>
      split at he
      · next n hn =>
        cases he
        obtain ⟨ms, rfl⟩ : ∃ ms, ns = ms ++ [n] := by
          rcases List.eq_nil_or_concat ns with rfl | ⟨l, u, rfl⟩
          · cases hn
          · simp at hn
            exact ⟨l, by rw [List.concat_eq_append, hn]⟩
        rw [List.dropLast_concat]
        simp only [aeval] at ha
        split at ha
        · cases ha
        · next hl =>
          replace hl : low y = true := by simpa using hl
          have hyT := (low_ne hl).1
          have hi' := hi.drop (val' := val) TMP (fun _ _ => rfl)
          obtain ⟨hT1, hT2, hT3⟩ := dropVar_none TMP a
          have hvy : val y = .vec (ms ++ [n]) := by rw [hval y hl, hns]
          have hB' : BoolsOk B (s.env.set y (.vec ms)) :=
            hB.set (hB.none (by intro b hb; rw [hns] at hb; cases hb)) _
          split at ha
          · next hc =>
            rw [Bool.and_eq_true, beq_iff, beq_iff] at hc
            have hoth : ∀ z, z ≠ y → z ≠ TMP → upd val (s.env.set y (.vec ms)) (.node n) z = val z := by
              intro z hz hzT
              exact upd_other (fun h => by rw [set_other hz]; exact hval z h) hzT
            have hy' : upd val (s.env.set y (.vec ms)) (.node n) y = .vec ms := by
              rw [upd_low hl, set_self]
            split at ha
            · next as hf =>
              cases ha
              exact ⟨hs, hB', _, fun x hx => upd_low hx, by rw [upd_rest, hR], upd_tmp,
                hi'.popOne hyT hc.1 hc.2 hT1 hT2 hT3 hf hvy hy' upd_tmp hoth⟩
            · next as hf =>
              cases ha
              exact ⟨hs, hB', _, fun x hx => upd_low hx, by rw [upd_rest, hR], upd_tmp,
                hi'.splitOff hyT hc.1 hc.2 hT1 hT2 hT3 hvy hy' upd_tmp hoth⟩
            · cases ha
          · cases ha
      · cases he
    · cases he
  | prec o =>
    cases ha
    simp only [evalExp] at he
    obtain ⟨i, hi, he⟩ := PI.bind_ok he
    obtain ⟨c, hc, he⟩ := PI.bind_ok he
    cases he
    exact hdrop
  | natLit n => cases ha; cases he; exact hdrop
  | boolLit n => cases ha; cases he; exact hdrop
  | kws ks => cases ha; cases he; exact hdrop
  | upperLit o =>
    cases ha
    simp only [evalExp] at he
    obtain ⟨t, ht, he⟩ := PI.bind_ok he
    cases he
    exact hdrop
  | cond c =>
    cases ha
    simp only [evalExp] at he
    obtain ⟨t, ht, he⟩ := PI.bind_ok he
    cases he
    exact hdrop

/-! ### Conditions -/

theorem known_sound {C : Ctx} {B : Bools} {s : St} (hB : BoolsOk B s.env) : ∀ {c : Cond} {b v : Bool},
    known B c = some b → evalCond C s c = .ok v → v = b
  | .bvar x, b, v, h, hc => by
    have h1 : boolOf x B = some b := h
    simp only [evalCond] at hc
    rw [hB x b h1] at hc
    cases hc
    rfl
  | .const c, b, v, h, hc => by cases h; cases hc; rfl
  | .not c, b, v, h, hc => by
    simp only [evalCond] at hc
    obtain ⟨w, hw, hc⟩ := PI.bind_ok hc
    cases hc
    rw [known] at h
    split at h
    · next b' hb =>
      cases h
      rw [known_sound hB hb hw]
    · cases h
  | .and c d, b, v, h, hc => by
    simp only [evalCond] at hc
    obtain ⟨w, hw, hc⟩ := PI.bind_ok hc
    rw [known] at h
    have ih1 : ∀ b, known B c = some b → w = b := fun b hb => known_sound hB hb hw
    split at h
    · next h1 =>
      cases h
      obtain rfl := ih1 _ h1
      cases hc
      rfl
    · next h2 _ =>
      cases h
      cases w with
      | false => cases hc; rfl
      | true => exact known_sound hB h2 hc
    · next h1 h2 =>
      cases h
      obtain rfl := ih1 _ h1
      exact known_sound hB h2 hc
    · cases h
  | .or c d, b, v, h, hc => by
    simp only [evalCond] at hc
    obtain ⟨w, hw, hc⟩ := PI.bind_ok hc
    rw [known] at h
    have ih1 : ∀ b, known B c = some b → w = b := fun b hb => known_sound hB hb hw
    split at h
    · next h1 =>
      cases h
      obtain rfl := ih1 _ h1
      cases hc
      rfl
    · next h2 _ =>
      cases h
      cases w with
      | true => cases hc; rfl
      | false => exact known_sound hB h2 hc
    · next h1 h2 =>
      cases h
      obtain rfl := ih1 _ h1
      exact known_sound hB h2 hc
    · cases h
  | .up _ _, _, _, h, _ => by cases h
  | .raw _ _, _, _, h, _ => by cases h
  | .upVar _ _, _, _, h, _ => by cases h
  | .isIdent _, _, _, h, _ => by cases h
  | .isStr _, _, _, h, _ => by cases h
  | .isNum _, _, _, h, _ => by cases h
  | .eof _, _, _, h, _ => by cases h
  | .hasTok _, _, _, h, _ => by cases h
  | .precLt _, _, _, h, _ => by cases h
  | .lenPos _, _, _, h, _ => by cases h
  | .lenOne _, _, _, h, _ => by cases h
  | .strIs _ _, _, _, h, _ => by cases h
  | .typeIs _ _, _, _, h, _ => by cases h
  | .leftmostIs _ _, _, _, h, _ => by cases h
  | .hasAnyKey _ _, _, _, h, _ => by cases h
  | .firstCharIs _, _, _, h, _ => by cases h
  | .lastCharIs _, _, _, h, _ => by cases h
  | .adjacent, _, _, h, _ => by cases h

theorem refine_sound {C : Ctx} {B : Bools} {R : Val} {s : St} (h : Ok ru toks st AL AR B R a s) {c : Cond} {v : Bool}
    (hc : evalCond C s c = .ok v) : ∃ a' ∈ refine c v a, Ok ru toks st AL AR B R a' s := by
  obtain ⟨hs, hB, val, hval, hR, hi⟩ := h
  have h : Ok ru toks st AL AR B R a s := ⟨hs, hB, val, hval, hR, hi⟩
  unfold refine
  split
  · next x =>
    split
    · next hl =>
      split
      · next he =>
        exfalso
        obtain ⟨gl, gr, hg⟩ := hi
        have := hg.em _ _ he
        rw [hval x hl] at this
        simp only [evalCond] at hc
        rw [this] at hc
        cases hc
      · exact ⟨a, List.mem_singleton.2 rfl, h⟩
    · exact ⟨a, List.mem_singleton.2 rfl, h⟩
  · next x =>
    split
    · next hl =>
      split
      · exact ⟨a, List.mem_singleton.2 rfl, h⟩
      · refine ⟨_, List.mem_singleton.2 rfl, hs, hB, val, hval, hR, hi.lenZero ?_⟩
        rw [hval x hl]
        simp only [evalCond] at hc
        split at hc
        · next ns hns =>
          rw [hns]
          cases ns with
          | nil => rfl
          | cons n r => simp at hc
        · cases hc
    · exact ⟨a, List.mem_singleton.2 rfl, h⟩
  · next x =>
    split
    · next hl =>
      simp only [evalCond] at hc
      split at hc
      · next ns hns =>
        refine ⟨_, List.mem_singleton.2 rfl, hs, hB, val, hval, hR, hi.lenOne ((hval x hl).trans hns) ?_⟩
        simpa using hc
      · cases hc
    · exact ⟨a, List.mem_singleton.2 rfl, h⟩
  · next x t =>
    split
    · next hl =>
      simp only [evalCond] at hc
      split at hc
      · next n hn =>
        have : n.ty = t := by simpa using hc
        subst this
        exact ⟨_, List.mem_singleton.2 rfl, hs, hB, val, hval, hR, hi.typeIs ((hval x hl).trans hn)⟩
      · cases hc
    · exact ⟨a, List.mem_singleton.2 rfl, h⟩
  · exact ⟨a, List.mem_singleton.2 rfl, h⟩

theorem assume_sound {C : Ctx} {B : Bools} {R : Val} {s : St} (h : Ok ru toks st AL AR B R a s) {c : Cond} {v : Bool}
    (hc : evalCond C s c = .ok v) : ∃ a' ∈ assume B c v a, Ok ru toks st AL AR B R a' s := by
  unfold assume
  split
  · next b hb =>
    obtain rfl := known_sound h.2.1 hb hc
    rw [if_pos (by simp)]
    exact refine_sound h hc
  · exact refine_sound h hc

end Verif.OI
