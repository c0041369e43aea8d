import Verif.Proofs.Work
/-! The bound on the work of the parser. -/
namespace Verif
open Core Interp

variable {C : Ctx} {w : Fn → List Val → PS → Nat} {pot : Nat → Nat} {p0 r K Bl Bh : Nat}

theorem budgetOk_all : ∀ f ∈ Fn.all, f ≠ .parse_table → budgetOk Program.defs f = true := by decide +kernel

/-- The body of the loop in src/parser.rs 1236-1244. -/
def lookBody : Cmd :=
  .ite (.up (.var v_offset 0) [.WITH, .SELECT, .FROM]) (
    .set v_statement_flg (.boolLit true) ;;
    .brk) (
    .ite (.not (.up (.var v_offset 0) [.sym_lparen])) (
      .brk) .skip)

/-- The next token is one that could begin a query. -/
def Queryish (C : Ctx) (ps : PS) : Prop :=
  ∃ t, getToken C.toks ps 1 = .ok t ∧ t.inKws C.U [.WITH, .SELECT, .FROM, .sym_lparen] = true

theorem inKws_mono {U : Unicode} {t : Token} {ks ls : List Kw} (h : t.inKws U ks = true)
    (hs : ∀ k ∈ ks, k ∈ ls) : t.inKws U ls = true := by
  unfold Token.inKws at h ⊢
  rw [List.any_eq_true] at h ⊢
  obtain ⟨k, hk, h⟩ := h
  exact ⟨k, hs k hk, h⟩

theorem look_spec (n : Nat) : ∀ (i : Nat) (s : St), 1 ≤ i → (i = 1 ∨ Queryish C s.ps) →
    s.env v_statement_flg = .bool false →
    scanWork (work C w lookBody) (exec C lookBody) v_offset n i s = 0 ∧
    ∀ fl s', scanLoop (exec C lookBody) v_offset (fun _ => .timeout) n i s = .ok (fl, s') →
      fl = .norm ∧ s'.ps = s.ps ∧ ∃ b, s'.env v_statement_flg = .bool b ∧ (b = true → Queryish C s.ps) := by
  induction n with
  | zero => intro i s _ _ _; exact ⟨rfl, fun fl s' h => by simp [scanLoop] at h⟩
  | succ n ih =>
    intro i s hi hq hf
    have hne : ∀ v, (s.env.set v_offset v) v_statement_flg = .bool false := by
      intro v; unfold Env.set; rw [if_neg (by decide)]; exact hf
    have ho : (s.env.set v_offset (.nat i)) v_offset = .nat i := by unfold Env.set; rw [if_pos rfl]
    simp only [scanWork, scanLoop]
    have hc : offTok C { s with env := s.env.set v_offset (.nat i) } (.var v_offset 0) =
        getToken C.toks s.ps i := by
      simp only [offTok, evalOff, ho]
      rfl
    have hw : work C w lookBody { s with env := s.env.set v_offset (.nat i) } = 0 := by
      simp only [lookBody, work, expWork]
      repeat' split
      all_goals simp
    have he : exec C lookBody { s with env := s.env.set v_offset (.nat i) } =
        match getToken C.toks s.ps i with
        | .ok t => if t.inKws C.U [.WITH, .SELECT, .FROM] then
            .ok (.brk, { s with env := (s.env.set v_offset (.nat i)).set v_statement_flg (.bool true) })
          else if t.inKws C.U [.sym_lparen] then .ok (.norm, { s with env := s.env.set v_offset (.nat i) })
          else .ok (.brk, { s with env := s.env.set v_offset (.nat i) })
        | .err e => .err e
        | .panic p => .panic p
        | .timeout => .timeout := by
      simp only [lookBody, exec, evalCond, hc]
      cases getToken C.toks s.ps i with
      | ok t =>
        simp only [Out.bind_ok]
        cases t.inKws C.U [.WITH, .SELECT, .FROM] with
        | true => simp [evalExp]
        | false =>
          cases t.inKws C.U [.sym_lparen] <;> simp
      | _ => rfl
    rw [hw, he]
    cases ht : getToken C.toks s.ps i with
    | ok t =>
      dsimp only
      have hgood : ∀ ks, (∀ k ∈ ks, k ∈ [Kw.WITH, .SELECT, .FROM, .sym_lparen]) → t.inKws C.U ks = true →
          Queryish C s.ps := by
        intro ks hks h
        rcases hq with rfl | hq
        · exact ⟨t, ht, inKws_mono h hks⟩
        · exact hq
      by_cases h1 : t.inKws C.U [.WITH, .SELECT, .FROM] = true
      · rw [if_pos h1]
        refine ⟨rfl, fun fl s' h => ?_⟩
        simp only [Out.ok.injEq, Prod.mk.injEq] at h
        obtain ⟨rfl, rfl⟩ := h
        exact ⟨rfl, rfl, true, by simp [Env.set], fun _ => hgood _ (by decide) h1⟩
      · rw [if_neg h1]
        by_cases h2 : t.inKws C.U [.sym_lparen] = true
        · rw [if_pos h2]
          have := ih (i + 1) { s with env := s.env.set v_offset (.nat i) } (by omega)
            (.inr (hgood _ (by decide) h2)) (hne (.nat i))
          simpa using this
        · rw [if_neg h2]
          refine ⟨rfl, fun fl s' h => ?_⟩
          simp only [Out.ok.injEq, Prod.mk.injEq] at h
          obtain ⟨rfl, rfl⟩ := h
          exact ⟨rfl, rfl, false, hne (.nat i), by simp⟩
    | _ => exact ⟨rfl, fun fl s' h => by simp at h⟩

/-- The next token is the first one that is no comment. -/
theorem scanFrom_next (idx : Nat) (ts : List Token) {i : Nat} (h : scanFrom 1 0 idx ts = some i) :
    ∃ t, ts.find? (fun u => !u.isComment) = some t ∧ ts[i - idx]? = some t ∧ idx ≤ i := by
  induction ts generalizing idx with
  | nil => simp [scanFrom] at h
  | cons t ts ih =>
    simp only [scanFrom] at h
    split at h
    · rename_i hc
      obtain ⟨u, h1, h2, h3⟩ := ih _ h
      refine ⟨u, ?_, ?_, by omega⟩
      · rw [List.find?_cons_of_neg (by simp [hc])]; exact h1
      · rw [show i - idx = (i - (idx + 1)) + 1 by omega]
        simpa using h2
    · rename_i hc
      rw [if_pos (by omega)] at h
      obtain rfl : idx = i := by simpa using h
      exact ⟨t, List.find?_cons_of_pos (by simpa using hc), by simp, Nat.le_refl _⟩

theorem opensQuery_of {ps : PS} (hs : ps.In C.toks) (h0 : ∃ t, getToken C.toks ps 0 = .ok t ∧
    t.inKws C.U [.sym_lparen] = true) (h1 : Queryish C ps) :
    Spec.opensQuery C.U (C.toks.drop ps.pos) = true := by
  obtain ⟨t, h0, ht⟩ := h0
  obtain ⟨u, h1, hu⟩ := h1
  rw [List.drop_eq_getElem_cons hs]
  have e0 : C.toks[ps.pos]'hs = t := by
    simp only [getToken, getOffsetIndex, if_true, tokAt] at h0
    rw [List.getElem?_eq_getElem hs] at h0
    simpa using h0
  have e1 : (C.toks.drop (ps.pos + 1)).find? (fun u => !u.isComment) = some u := by
    simp only [getToken, getOffsetIndex, if_neg (show ¬ 1 = 0 by omega)] at h1
    cases hx : scanFrom 1 0 (ps.pos + 1) (C.toks.drop (ps.pos + 1)) with
    | none =>
      rw [hx] at h1
      dsimp only at h1
      cases hl : C.toks.getLast? <;> rw [hl] at h1 <;> simp at h1
    | some i =>
      rw [hx] at h1
      obtain ⟨v, g1, g2, g3⟩ := scanFrom_next _ _ hx
      rw [List.getElem?_drop, show ps.pos + 1 + (i - (ps.pos + 1)) = i by omega] at g2
      simp only [tokAt, g2, Out.ok.injEq] at h1
      rw [g1, h1]
  rw [e0]
  simp only [Spec.opensQuery, e1, Bool.and_eq_true, beq_iff_eq, List.any_cons, List.any_nil, Bool.or_false,
    Bool.or_eq_true]
  simp only [Token.inKws, List.any_cons, List.any_nil, Bool.or_false, Bool.or_eq_true, beq_iff_eq] at ht hu
  refine ⟨ht, ?_⟩
  rcases hu with h | h | h | h
  · exact .inr (.inl h)
  · exact .inl h
  · exact .inr (.inr (.inl h))
  · exact .inr (.inr (.inr h))

/-- How src/parser.rs 1229-1415 begins. -/
theorem table_shape : ∃ HR E D B R : Cmd, (Program.defs .parse_table).body =
    .seq (.ite (.up (.lit 0) [.sym_lparen]) (
        .seq (.set v_statement_flg (.boolLit false)) (
        .seq (.scan v_offset 1 none lookBody) (
        .seq (.ite (.bvar v_statement_flg) (
            .tryElse v_group .parse_select_statement [.bool false, .bool false] (
              .seq (.set v_group_1 (.construct .GroupedExpr)) (
              .seq .next HR))) E) D))) B) R ∧
    (let h := budget 2 3 HR (.post 1 2); h.ok = true ∧ h.norm = some (.post 1 2) ∧ h.brk = none ∧ h.ret = none) ∧
    (let e := budget 2 3 E .start; e.ok = true ∧ e.norm = some (.post 0 2) ∧ e.brk = none ∧ e.ret = none) ∧
    (let d := budget 2 3 D (.pre 1); d.ok = true ∧ d.norm = some (.pre 1) ∧ d.brk = none ∧ d.ret = none) ∧
    (let b := budget 2 3 B .start; b.ok = true ∧ b.norm = some (.pre 1) ∧ b.brk = none ∧ b.ret = none) ∧
    (budget 2 3 R (.pre 1)).ok = true := by
  refine ⟨_, _, _, _, _, rfl, ?_, ?_, ?_, ?_, ?_⟩
  all_goals decide +kernel

/-- Only ways of leaving that fit. -/
theorem Fine.only {toks : List Token} {b : Budget} {σ τ : Pace} {o : Out (Flow × St)} {t : Nat}
    (h : Fine toks pot p0 K Bl Bh b o t) (h1 : b.norm = some σ) (hi : σ.imp K τ = true) (h2 : b.brk = none)
    (h3 : b.ret = none) : Fine toks pot p0 K Bl Bh ⟨some τ, none, none, true⟩ o t := by
  refine ⟨h.1, fun fl s' he => ?_⟩
  obtain ⟨g1, ρ, g2, g3⟩ := h.2 fl s' he
  refine ⟨g1, ?_⟩
  cases fl with
  | norm =>
    simp only [Budget.at, h1, Option.some.injEq] at g2
    subst g2
    exact ⟨τ, rfl, g3.imp hi⟩
  | brk => simp [Budget.at, h2] at g2
  | ret v => simp [Budget.at, h3] at g2

/-- The number of calls made by src/parser.rs 1229-1415. -/
theorem table_work (hM : Metered C w (potFrom C.U C.toks) p0 3 2 Bl Bh)
    (hfee : fee = 2 * Bh + 1)
    (hsel : ∀ vs ps, ps.In C.toks → ps.pos = p0 →
      w .parse_select_statement vs ps ≤ Bl + potOnce C.U C.toks p0)
    (s : St) (hs : s.ps.In C.toks) (hp : s.ps.pos = p0) :
    ∃ b, Fine C.toks (potFrom C.U C.toks) p0 2 Bl Bh b (exec C (Program.defs .parse_table).body s)
      (0 + work C w (Program.defs .parse_table).body s) := by
  obtain ⟨HR, E, D, B, R, heq, ⟨hh1, hh2, hh3, hh4⟩, ⟨he1, he2, he3, he4⟩, ⟨hd1, hd2, hd3, hd4⟩,
    ⟨hb1, hb2, hb3, hb4⟩, hr⟩ := table_shape
  rw [heq]
  have hstart : Holds (potFrom C.U C.toks) p0 2 Bl Bh .start s.ps.pos 0 := ⟨hp, rfl⟩
  refine ⟨_, Fine.seq (b := ⟨some (.pre 1), none, none, true⟩) (f := budget 2 3 R) ?_ ?_⟩
  swap
  · intro σ s1 hn _ hs1 h1
    simp only [Option.some.injEq] at hn
    subst hn
    exact exec_work hM R _ s1 _ hs1 h1 hr
  simp only [exec, work]
  rcases hc : evalCond C s (.up (.lit 0) [.sym_lparen]) with (_ | _) | e | p | _
  · -- no parenthesis
    exact (exec_work hM B _ s 0 hs hstart hb1).only hb2 (by decide) hb3 hb4
  · -- a parenthesis
    dsimp only
    simp only [evalExp, Out.bind_ok, expWork]
    obtain ⟨l1, l2⟩ := look_spec (C := C) (w := w) C.fuel 1
      { s with env := s.env.set v_statement_flg (.bool false) } (Nat.le_refl _) (.inl rfl) (by simp [Env.set])
    rw [l1]
    rcases hl : scanLoop (exec C lookBody) v_offset (fun _ => .timeout) C.fuel 1
      { s with env := s.env.set v_statement_flg (.bool false) } with ⟨f1, s1⟩ | e | p | _
    · obtain ⟨rfl, hps, flag, hflag, hq⟩ := l2 f1 s1 hl
      dsimp only at hps hq
      dsimp only
      simp only [evalCond, hflag, Nat.zero_add]
      have hs1 : s1.ps.In C.toks := by rw [hps]; exact hs
      have hstart1 : Holds (potFrom C.U C.toks) p0 2 Bl Bh .start s1.ps.pos 0 := ⟨by rw [hps]; exact hp, rfl⟩
      -- what comes after the branches
      have fin : ∀ (o : Out (Flow × St)) (t : Nat),
          Fine C.toks (potFrom C.U C.toks) p0 2 Bl Bh ⟨some (.pre 1), none, none, true⟩ o t →
          Fine C.toks (potFrom C.U C.toks) p0 2 Bl Bh ⟨some (.pre 1), none, none, true⟩
            (match o with | .ok (.norm, s') => exec C D s' | r => r)
            (t + match o with | .ok (.norm, s') => work C w D s' | _ => 0) := by
        intro o t ho
        rcases o with ⟨f2, s2⟩ | e | p | _
        · obtain ⟨g1, ρ, g2, g3⟩ := ho.2 f2 s2 rfl
          cases f2 with
          | norm =>
            simp only [Budget.at, Option.some.injEq] at g2
            subst g2
            exact (exec_work hM D _ s2 t g1 g3 hd1).only hd2 (by decide) hd3 hd4
          | brk => simp [Budget.at] at g2
          | ret v => simp [Budget.at] at g2
        all_goals exact ho
      cases flag with
      | false => 
        dsimp only
        exact fin _ _ ((by simpa using exec_work hM E _ s1 0 hs1 hstart1 he1 :
          Fine C.toks (potFrom C.U C.toks) p0 2 Bl Bh (budget 2 3 E .start) (exec C E s1) (work C w E s1)).only
            he2 (by decide) he3 he4)
      | true =>
        dsimp only
        refine fin _ _ ?_
        have hopen : Spec.opensQuery C.U (C.toks.drop p0) = true := by
          have hx := opensQuery_of hs (by
            simp only [evalCond, offTok, evalOff] at hc
            obtain ⟨t, h1, h2⟩ := bind_ok_inv hc
            exact ⟨t, h1, by simpa using h2⟩) (hq rfl)
          rw [hp] at hx; exact hx
        have hp0 : p0 < C.toks.length := by rw [← hp]; exact hs
        have hpot : potFrom C.U C.toks p0 = 2 * potOnce C.U C.toks p0 := by
          rw [potFrom_eq C.U C.toks hp0, if_pos hopen]
        simp only [evalAtoms, evalAtom, Out.bind_ok]
        have hp1 : s1.ps.pos = p0 := by rw [hps]; exact hp
        have hw := hsel [.bool false, .bool false] s1.ps hs1 hp1
        obtain ⟨-, hlow⟩ := hM.low .parse_select_statement [.bool false, .bool false] s1.ps hs1 (by omega) (by decide)
        generalize hW : w .parse_select_statement [.bool false, .bool false] s1.ps = W at hw hlow ⊢
        rcases hx : C.call .parse_select_statement [.bool false, .bool false] s1.ps with ⟨v, ps⟩ | e | p | _
        · dsimp only
          refine ⟨by omega, fun fl s' he => ?_⟩
          simp only [Out.ok.injEq, Prod.mk.injEq] at he
          obtain ⟨rfl, rfl⟩ := he
          obtain ⟨m1, m2⟩ := hM.mono _ _ _ _ _ hs1 hx
          have h3 := hlow v ps hx
          rw [hp1] at h3
          exact ⟨m1, .pre 1, rfl, by dsimp only; omega, by omega, by dsimp only; omega⟩
        · -- the second attempt
          simp only [evalExp, expWork, Nat.zero_add]
          rcases hcon : construct C.U C.toks s1.ps .GroupedExpr with g | e | p | _
          · simp only [Out.bind_ok]
            rcases nextToken_cases C.toks s1.ps hs1 with ⟨ps', g1, g2, g3, g4⟩ | ⟨t, g1, g2⟩
            · rw [g1]
              simp only [Out.bind_ok]
              have hmv := potFrom_move C.U C.toks (p := p0) (q := ps'.pos) (by omega)
              have hpost : Holds (potFrom C.U C.toks) p0 2 Bl Bh (.post 1 2) ps'.pos (W + 1) :=
                ⟨by omega, by omega, by omega⟩
              have := (exec_work hM HR _ ⟨ps', s1.env.set v_group_1 (.node g)⟩ (W + 1) g4 hpost hh1).only
                hh2 (τ := .pre 1) (by decide) hh3 hh4
              rw [Nat.add_assoc] at this
              exact this
            · rw [g2]
              simp only [Out.bind_err]
              have : 1 ≤ fee := by decide
              unfold potOnce at hw hpot
              refine ⟨?_, fun fl s' he => by simp at he⟩
              show W + (1 + 0) ≤ _
              simp only [Nat.add_zero]
              omega
          all_goals exact ⟨by simp only [Out.bind_err, Out.bind_panic, Out.bind_timeout]; omega, fun fl s' he => by simp at he⟩
        all_goals exact ⟨by simp only [Nat.zero_add, Nat.add_zero]; omega, fun fl s' he => by simp at he⟩
    all_goals exact ⟨by simp only [Nat.zero_add, Nat.add_zero]; omega, fun fl s' he => by simp at he⟩
  all_goals exact ⟨by simp only [Nat.zero_add, Nat.add_zero]; omega, fun fl s' he => by simp at he⟩

theorem cost_succ (r : Nat) : cost r = 1 + slack * lowCost r := by
  cases r <;> rfl

/-- Every call makes at most as many calls as its rank and the tokens it passes allow. -/
theorem workN_bound (U : Unicode) (toks : List Token) (fuel n : Nat) : ∀ f vs (ps : PS), ps.In toks →
    (rank f < 3 → Bounded (callN U Program.defs toks fuel n) (workN U Program.defs toks fuel n)
      (potAt U toks ps.pos) (cost (rank f)) f vs ps) ∧
    Bounded (callN U Program.defs toks fuel n) (workN U Program.defs toks fuel n)
      (potFrom U toks) (cost (rank f)) f vs ps := by
  induction n with
  | zero =>
    intro f vs ps hs
    refine ⟨fun _ => ⟨?_, fun v ps' h => ?_⟩, ?_, fun v ps' h => ?_⟩
    all_goals first
      | (simp only [workN]; omega)
      | (simp [callN] at h)
  | succ n ih =>
    intro f vs ps hs
    have hmono := callN_mono U Program.defs toks fuel n
    -- calls at or beyond this place
    have hlow : ∀ g (_ : List Val) (ps1 : PS), ps1.In toks → ps.pos ≤ ps1.pos → rank g < rank f →
        cost (rank g) ≤ lowCost (rank f) := by
      intro g _ _ _ _ hr
      cases hf : rank f with
      | zero => omega
      | succ k => rw [hf] at hr; exact cost_mono (by omega)
    have hmeter : rank f < 3 → Metered ⟨U, toks, fuel, callN U Program.defs toks fuel n⟩
        (workN U Program.defs toks fuel n) (potAt U toks ps.pos) ps.pos (rank f) slack (lowCost (rank f)) (cost 3) := by
      intro hr
      refine ⟨hmono, ?_, ?_, ?_⟩
      · intro g ws ps1 hs1 hle hg
        obtain ⟨i1, i2⟩ := ih g ws ps1 hs1
        refine Bounded.mono ?_ (hlow g ws ps1 hs1 hle hg)
        rcases Nat.eq_or_lt_of_le hle with he | hlt
        · rw [he]; exact i1 (by omega)
        · exact i2.beyond hmono hs1 hlt
      · intro g ws ps1 hs1 hlt
        exact ((ih g ws ps1 hs1).2.mono (cost_mono (rank_le g))).beyond hmono hs1 hlt
      · intro p q hp hlen hpq
        have h1 := potFrom_move U toks hpq
        have h2 := potOnce_le U toks hlen
        have e : potAt U toks ps.pos q = potFrom U toks q := by unfold potAt; rw [if_neg (by omega)]
        rw [e]
        unfold potAt
        have h3 : slack * cost 3 + 1 = fee := rfl
        split
        · rename_i he; rw [← he]; omega
        · omega
    have hmeter3 : rank f = 3 → Metered ⟨U, toks, fuel, callN U Program.defs toks fuel n⟩
        (workN U Program.defs toks fuel n) (potFrom U toks) ps.pos 3 slack (lowCost 3) (cost 3) := by
      intro hr
      refine ⟨hmono, ?_, ?_, ?_⟩
      · intro g ws ps1 hs1 hle hg
        have := hlow g ws ps1 hs1 hle (by omega)
        rw [hr] at this
        exact (ih g ws ps1 hs1).2.mono this
      · intro g ws ps1 hs1 hlt
        exact (ih g ws ps1 hs1).2.mono (cost_mono (rank_le g))
      · intro p q hp hlen hpq
        have h1 := potFrom_move U toks hpq
        have h2 := potOnce_le U toks hlen
        have h3 : slack * cost 3 + 1 = fee := rfl
        omega
    -- from the body to the call
    have wrap : ∀ (pot : Nat → Nat) (b : Budget),
        Fine toks pot ps.pos slack (lowCost (rank f)) (cost 3) b
          (exec ⟨U, toks, fuel, callN U Program.defs toks fuel n⟩ (Program.defs f).body
            ⟨ps, bindParams (Program.defs f).params vs⟩)
          (0 + work ⟨U, toks, fuel, callN U Program.defs toks fuel n⟩ (workN U Program.defs toks fuel n)
            (Program.defs f).body ⟨ps, bindParams (Program.defs f).params vs⟩) →
        Bounded (callN U Program.defs toks fuel (n + 1)) (workN U Program.defs toks fuel (n + 1)) pot
          (cost (rank f)) f vs ps := by
      rintro pot b ⟨h1, h2⟩
      have hc := cost_succ (rank f)
      rw [Nat.zero_add] at h1 h2
      refine ⟨by simp only [workN]; omega, fun v ps' hx => ?_⟩
      simp only [callN, runBody] at hx
      split at hx <;> simp only [Out.ok.injEq, Prod.mk.injEq, reduceCtorEq] at hx
      rename_i v1 s1 hx1
      obtain ⟨rfl, rfl⟩ := hx
      obtain ⟨-, σ, -, h3⟩ := h2 _ _ hx1
      have h4 := h3.weak
      have h5 := Nat.mul_le_mul_right (lowCost (rank f)) h4.1
      simp only [workN]
      omega
    by_cases hf : f = .parse_table
    · subst hf
      refine ⟨fun h => absurd h (by decide), ?_⟩
      obtain ⟨b, hb⟩ := table_work (hmeter3 rfl) rfl (fun ws ps1 hs1 hp => by
        have := ((ih .parse_select_statement ws ps1 hs1).1 (by decide)).1
        simp only [potAt, if_true] at this
        rw [hp] at this
        have h1 : cost (rank .parse_select_statement) ≤ lowCost 3 := by decide
        exact Nat.le_trans this (Nat.add_le_add_right h1 _)) ⟨ps, bindParams (Program.defs .parse_table).params vs⟩ hs rfl
      exact wrap _ b hb
    · have hok : (budget slack (rank f) (Program.defs f).body .start).ok = true :=
        budgetOk_all f (mem_fn_all f) hf
      by_cases hr : rank f < 3
      · have hb := wrap _ _ (exec_work (hmeter hr) _ .start ⟨ps, bindParams (Program.defs f).params vs⟩ 0 hs
          ⟨rfl, rfl⟩ hok)
        exact ⟨fun _ => hb, hb.of_once hs⟩
      · have hr3 : rank f = 3 := by have := rank_le f; omega
        refine ⟨fun h => absurd h hr, ?_⟩
        rw [hr3] at hok
        have hm := hmeter3 hr3
        have := wrap (potFrom U toks) (budget slack 3 (Program.defs f).body .start)
        rw [hr3] at this
        rw [hr3]
        exact this (exec_work hm _ .start ⟨ps, bindParams (Program.defs f).params vs⟩ 0 hs ⟨rfl, rfl⟩ hok)

theorem parseLoopWork_bound (U : Unicode) (toks : List Token) (fuel depth n : Nat) : ∀ ps : PS, ps.In toks →
    parseLoopWork U toks fuel depth n ps ≤ cost 3 + potFrom U toks ps.pos := by
  induction n with
  | zero => intro ps _; simp only [parseLoopWork]; omega
  | succ n ih =>
    intro ps hs
    simp only [parseLoopWork]
    split
    · omega
    · obtain ⟨h1, h2⟩ := (workN_bound U toks fuel depth .parse_statement [.bool true] ps hs).2
      have hc : cost (rank .parse_statement) ≤ cost 3 := cost_mono (rank_le _)
      have hfee : fee = 2 * cost 3 + 1 := rfl
      have hc2 : cost (rank .parse_statement) + 1 ≤ fee := by decide
      unfold callWork call
      rcases hx : callN U Program.defs toks fuel depth .parse_statement [.bool true] ps with ⟨v, ps'⟩ | e | p | _
      · have h3 := h2 v ps' hx
        obtain ⟨m1, m2⟩ := callN_mono U _ toks fuel depth _ _ _ _ _ hs hx
        dsimp only
        rcases nextToken_cases toks ps' m1 with ⟨ps'', g1, g2, g3, g4⟩ | ⟨t, g1, g2⟩
        · rw [g1]
          dsimp only
          have h4 := ih ps'' g4
          have h5 := potFrom_move U toks g3
          have h6 := potOnce_le U toks m1
          change _ + (1 + parseLoopWork U toks fuel depth n ps'') ≤ _
          omega
        · rw [g2]
          have h6 := potOnce_le U toks m1
          unfold potOnce at h6
          simp only [Nat.add_zero]
          omega
      all_goals (simp only [Nat.add_zero]; omega)

/-- The bound on the work of the parser. -/
theorem parseWork_bound (U : Unicode) (toks : List Token) :
    parseWork U toks ≤ fee * (toks.length + 1) * 2 ^ Spec.openings U toks := by
  unfold parseWork
  rcases hn : Core.new toks with ps | e | p | _
  · dsimp only
    have h1 := parseLoopWork_bound U toks (toks.length + 1) (4 * toks.length) (toks.length + 1) ps (new_in _ _ hn)
    have h2 := potFrom_anti U toks (Nat.zero_le ps.pos)
    have h3 : potFrom U toks 0 ≤ fee * toks.length * 2 ^ Spec.openings U toks := by
      have := potential_le U toks
      simpa [potFrom] using this
    have h4 : fee ≤ fee * 2 ^ Spec.openings U toks := Nat.le_mul_of_pos_right _ Nat.one_le_two_pow
    have h5 : cost 3 ≤ fee := by decide
    rw [Nat.mul_add, Nat.add_mul, Nat.mul_one]
    omega
  all_goals exact Nat.zero_le _

end Verif
