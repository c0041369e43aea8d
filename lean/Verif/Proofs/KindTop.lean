import Verif.Proofs.Kind
import Verif.Proofs.Terminate
/-! The type of a statement is determined by its first words: the dispatch of `parse_statement`. -/
namespace Verif.Kind
open Core Interp Spec Program Blame

variable {U : Unicode} {toks : List Token}

/-! ### Functions -/

theorem types_ok : ∀ f ∈ Fn.all, typesOk f = true := by decide +kernel

theorem holds_none (v : Val) : Holds none v := by intro l h; cases h

theorem runBody_ok {C : Ctx} {d : FunDef} {vs : List Val} {ps ps' : PS} {v : Val}
    (h : runBody C d vs ps = .ok (v, ps')) :
    ∃ s', exec C d.body ⟨ps, bindParams d.params vs⟩ = .ok (.ret v, s') ∧ s'.ps = ps' := by
  unfold runBody at h
  split at h
  · next w s' he => cases h; exact ⟨s', he, rfl⟩
  all_goals cases h

theorem callN_typed (fuel n : Nat) : Typed types (callN U defs toks fuel n) := by
  induction n with
  | zero => intro f vs ps v ps' l _ h; cases h
  | succ n ih =>
    intro f vs ps v ps' l hl h
    obtain ⟨s', he, _⟩ := runBody_ok h
    have hok := types_ok f (mem_fn_all f)
    unfold typesOk at hok
    rw [hl] at hok
    dsimp only at hok
    split at hok
    · next x _ =>
      obtain ⟨a, ha⟩ := Option.isSome_iff_exists.1 hok
      exact flow_sound (C := ⟨U, toks, fuel, callN U defs toks fuel n⟩) ih ha (holds_none _) he
    · cases hok

/-! ### Words -/

theorem getToken_zero {s : PS} {t : Token} (h : toks[s.pos]? = some t) : getToken toks s 0 = .ok t := by
  simp [getToken, getOffsetIndex, tokAt, h]

/-- The token is the keyword, or no keyword. -/
def WordIs (U : Unicode) (t : Token) : Option Kw → Prop
  | some k => t.upper U = k.lit
  | none => ∀ k : Kw, t.upper U ≠ k.lit

theorem wordIs_exists (U : Unicode) (t : Token) : ∃ k, WordIs U t k := by
  by_cases h : ∃ k : Kw, t.upper U = k.lit
  · obtain ⟨k, hk⟩ := h
    exact ⟨some k, hk⟩
  · exact ⟨none, fun k hk => h ⟨k, hk⟩⟩

theorem lit_inj {a b : Kw} (h : a.lit = b.lit) : a = b := by
  have h1 := AI.clsOf_lit a (AI.mem_kw_all a)
  rw [h, AI.clsOf_lit b (AI.mem_kw_all b)] at h1
  exact (AI.kw_inj h1).symm

theorem inKws_isWord {t : Token} {k : Option Kw} (h : WordIs U t k) (ks : List Kw) : t.inKws U ks = isWord k ks := by
  unfold Token.inKws isWord
  cases k with
  | none =>
    dsimp only
    rw [List.any_eq_false]
    intro x _
    simpa using h x
  | some k =>
    dsimp only
    unfold mem
    have : ∀ x : Kw, (t.upper U == x.lit) = Nat.beq k.ctorIdx x.ctorIdx := by
      intro x
      rw [show t.upper U = k.lit from h, Bool.eq_iff_iff, beq_iff_eq]
      exact ⟨fun e => by rw [lit_inj e]; exact Nat.beq_refl _, fun e => by rw [AI.kw_inj (Nat.eq_of_beq_eq_true e)]⟩
    simp only [this]

theorem first_right {C : Ctx} {s : St} {t : Token} {k : Option Kw} (ht : getToken C.toks s.ps 0 = .ok t)
    (hk : WordIs C.U t k) : Right C s (first k) := by
  intro c b b' h1 h2
  unfold first at h1
  split at h1
  · next ks =>
    cases h1
    simp only [evalCond, offTok, evalOff, ht, Out.bind_ok] at h2
    cases h2
    exact inKws_isWord hk ks
  · cases h1

theorem atVar_right {C : Ctx} {s : St} {x : Var} {i : Nat} {t : Token} {k : Option Kw} (hx : s.env x = .nat i)
    (ht : getToken C.toks s.ps i = .ok t) (hk : WordIs C.U t k) : Right C s (atVar x k) := by
  intro c b b' h1 h2
  unfold atVar at h1
  split at h1
  · next y ks =>
    split at h1
    · next hxy =>
      cases h1
      rw [← Nat.eq_of_beq_eq_true hxy] at h2
      simp only [evalCond, offTok, evalOff, hx, Nat.add_zero, ht, Out.bind_ok] at h2
      cases h2
      exact inKws_isWord hk ks
    · cases h1
  · cases h1

/-- The words from a position on. -/
def W (U : Unicode) (toks : List Token) (i : Nat) : List Str := words U (toks.drop i)

theorem W_cons {i : Nat} {t : Token} (ht : toks[i]? = some t) (hc : t.isComment = false) :
    W U toks i = t.upper U :: (ahead toks i).map (Token.upper U) := by
  unfold W words ahead
  obtain ⟨hlt, rfl⟩ := List.getElem?_eq_some_iff.1 ht
  rw [List.drop_eq_getElem_cons hlt, List.filter_cons_of_pos (by simp [hc])]
  rfl

theorem W_get {ps : PS} (hps : ps.WF toks) {n : Nat} {t : Token} (h : getToken toks ps n = .ok t) :
    (W U toks ps.pos)[n]? = some (t.upper U) := by
  obtain ⟨t0, h1, h2⟩ := hps.tok
  rw [W_cons h1 h2]
  cases n with
  | zero =>
    have := token_zero h
    rw [h1] at this
    cases this
    rfl
  | succ k =>
    rw [List.getElem?_cons_succ, List.getElem?_map, ahead_of_token h]
    rfl

theorem W_drop {ps : PS} (hps : ps.WF toks) {n : Nat} {t : Token} (h : getToken toks ps n = .ok t) :
    (W U toks ps.pos).drop n = t.upper U :: (W U toks ps.pos).drop (n + 1) := by
  have := W_get (U := U) hps h
  obtain ⟨hlt, he⟩ := List.getElem?_eq_some_iff.1 this
  rw [List.drop_eq_getElem_cons hlt, he]

theorem scan_filter_drop {ts : List Token} : ∀ {idx i : Nat}, scanFrom 1 0 idx ts = some i →
    (ts.filter fun t => !t.isComment) = (ts.drop (i - idx)).filter fun t => !t.isComment := by
  induction ts with
  | nil => intro idx i h; simp [scanFrom] at h
  | cons t ts ih =>
    intro idx i h
    simp only [scanFrom] at h
    split at h
    · next ht =>
      have hle := (scanFrom_spec _ _ _ _ _ h).1
      rw [List.filter_cons_of_neg (by simp [ht]), ih h, show i - idx = (i - (idx + 1)) + 1 by omega, List.drop_succ_cons]
    · split at h
      · cases h; simp
      · next hn => omega

theorem W_next {ps ps' : PS} (hps : ps.WF toks) (h : getOffsetIndex toks ps 1 = .ok ps'.pos) :
    W U toks ps'.pos = (W U toks ps.pos).drop 1 := by
  obtain ⟨t0, h1, h2⟩ := hps.tok
  rw [W_cons h1 h2, List.drop_succ_cons, List.drop_zero]
  have hs := scan_of_offset h
  have hle := (scanFrom_spec _ _ _ _ _ hs).1
  unfold W words ahead
  rw [scan_filter_drop hs, List.drop_drop, show ps.pos + 1 + (ps'.pos - (ps.pos + 1)) = ps'.pos by omega]

/-! ### Dispatch -/

theorem dispatch_ok : ∀ k ∈ Kw.all, dispatch k = true := by decide +kernel

theorem dispatch_none : calls (prune (first none) (defs .parse_statement).body) = some .parse_labeled_statement := by
  decide +kernel

/-- The search for what is created. -/
def createScan : Cmd := match prune (first (some .CREATE)) (defs .parse_statement).body with
  | .seq (.scan _ _ _ b) _ => b
  | _ => .skip

/-- The search for what is altered. -/
def alterScan : Cmd := match prune (first (some .ALTER)) (defs .parse_statement).body with
  | .seq (.scan _ _ _ b) _ => b
  | _ => .skip

theorem prune_create : prune (first (some .CREATE)) (defs .parse_statement).body =
    .seq (.scan v_offset 1 (some (.nat 6)) createScan) (.fail (.lit 0) 1141) := by decide +kernel

theorem prune_alter : prune (first (some .ALTER)) (defs .parse_statement).body =
    .seq (.scan v_offset 1 (some (.nat 6)) alterScan) (.fail (.lit 0) 1172) := by decide +kernel

theorem createScan_ok : (∀ k ∈ Kw.all, scanStep createScan createTypes (some k) = true) ∧
    scanStep createScan createTypes none = true := by decide +kernel

theorem alterScan_ok : (∀ k ∈ Kw.all, scanStep alterScan alterTypes (some k) = true) ∧
    scanStep alterScan alterTypes none = true := by decide +kernel

/-- The command begins with a test of the word at the offset in `v_offset`. -/
def testsOffset : Cmd → Bool
  | .ite (.up (.var x 0) _) _ _ => Nat.beq x v_offset
  | _ => false

theorem up_ok {C : Ctx} {s : St} {o : Off} {ks : List Kw} {b : Bool} (h : evalCond C s (.up o ks) = .ok b) :
    ∃ n t, evalOff s.env o = .ok n ∧ getToken C.toks s.ps n = .ok t ∧ b = t.inKws C.U ks := by
  simp only [evalCond] at h
  obtain ⟨t, h1, h2⟩ := bind_ok_of h
  cases h2
  unfold offTok at h1
  split at h1
  · next n hn => exact ⟨n, t, hn, h1, rfl⟩
  all_goals cases h1

theorem cond_ok {C : Ctx} {s : St} {c : Cond} {a b : Cmd} {r : Flow × St} (h : exec C (.ite c a b) s = .ok r) :
    ∃ v, evalCond C s c = .ok v ∧ exec C (if v then a else b) s = .ok r := by
  simp only [exec] at h
  split at h
  · next hv => exact ⟨true, hv, h⟩
  · next hv => exact ⟨false, hv, h⟩
  all_goals cases h

/-- What the search finds. -/
def Found (tbl : List (String × NodeType)) (v : Val) (n : Nat) (ws : List Str) : Prop :=
  ∃ m, v = .node m ∧ ∃ skipped w ws', ws = skipped ++ w :: ws' ∧ skipped.length < n ∧ NoneNamed skipped tbl ∧
    ((tbl.length = 12 ∧ w = "TABLE".toList ∧ ws'.head? = some "FUNCTION".toList ∧ m.ty = .CreateFunctionStatement) ∨
    (tbl.length = 12 ∧ w = "TABLE".toList ∧ ws'.head? ≠ some "FUNCTION".toList ∧ m.ty = .CreateTableStatement) ∨
    ∃ p ∈ tbl, w = p.1.toList ∧ ¬ (w = "TABLE".toList ∧ tbl.length = 12) ∧ m.ty = p.2)

theorem scan_found {fuel d : Nat} {body : Cmd} {tbl : List (String × NodeType)}
    (hok : (∀ k ∈ Kw.all, scanStep body tbl (some k) = true) ∧ scanStep body tbl none = true)
    (hkw : ∀ p ∈ tbl, ∃ k ∈ Kw.all, p.1.toList = k.lit)
    (hb : testsOffset body = true) {ps : PS} (hps : ps.WF toks) {v : Val} {s' : St} :
    ∀ (n i : Nat) (s : St), s.ps = ps →
      scanLoop (exec ⟨U, toks, fuel, callN U defs toks fuel d⟩ body) v_offset (fun s => .ok (.norm, s)) n i s =
        .ok (.ret v, s') →
      Found tbl v n ((W U toks ps.pos).drop i) := by
  intro n
  induction n with
  | zero => intro i s _ h; cases h
  | succ n ih =>
    intro i s hs h
    simp only [scanLoop] at h
    generalize hs1 : (⟨s.ps, s.env.set v_offset (.nat i)⟩ : St) = s1 at h
    have hs1p : s1.ps = ps := by rw [← hs1]; exact hs
    have hs1e : s1.env v_offset = .nat i := by rw [← hs1]; simp [Env.set]
    cases hx : exec ⟨U, toks, fuel, callN U defs toks fuel d⟩ body s1 with
    | err e => rw [hx] at h; cases h
    | panic e => rw [hx] at h; cases h
    | timeout => rw [hx] at h; cases h
    | ok r =>
    obtain ⟨t, ht⟩ : ∃ t, getToken toks ps i = .ok t := by
      unfold testsOffset at hb
      split at hb
      · next x ks a b =>
        obtain ⟨w, h1, _⟩ := cond_ok hx
        obtain ⟨n', t, h2, h3, _⟩ := up_ok h1
        rw [Nat.eq_of_beq_eq_true hb] at h2
        simp only [evalOff, hs1e, Nat.add_zero] at h2
        cases h2
        exact ⟨t, by rw [← hs1p]; exact h3⟩
      · cases hb
    obtain ⟨k, hk⟩ := wordIs_exists U t
    have hstep : scanStep body tbl k = true := by
      cases k with
      | none => exact hok.2
      | some k => exact hok.1 k (AI.mem_kw_all k)
    have hp := prune_sound (C := ⟨U, toks, fuel, callN U defs toks fuel d⟩) (s := s1)
      (atVar_right (C := ⟨U, toks, fuel, callN U defs toks fuel d⟩) hs1e (by rw [hs1p]; exact ht) hk) hx
    rw [hx] at h
    have hd := W_drop (U := U) hps ht
    unfold scanStep at hstep
    split at hstep
    · next hskip =>
      rw [hskip] at hp
      simp only [exec] at hp
      cases hp
      dsimp only at h
      obtain ⟨m, h1, skipped, w, ws', h2, h3, h4, h5⟩ := ih _ _ hs1p h
      refine ⟨m, h1, t.upper U :: skipped, w, ws', by rw [hd, h2]; rfl, by simp; omega, ?_, h5⟩
      intro x hx' p hp'
      rcases List.mem_cons.1 hx' with rfl | hx'
      · intro he
        cases k with
        | none =>
          obtain ⟨k, _, hk'⟩ := hkw p hp'
          exact hk k (he.trans hk')
        | some k =>
          have := List.all_eq_true.1 hstep p hp'
          rw [show t.upper U = k.lit from hk] at he
          simp [he] at this
      · exact h4 x hx' p hp'
    · next f as hret =>
      rw [hret] at hp
      cases k with
      | none => cases hstep
      | some k =>
        obtain ⟨p, hp1, hp2⟩ := List.any_eq_true.1 hstep
        simp only [Bool.and_eq_true, beq_iff_eq, Bool.not_eq_true'] at hp2
        obtain ⟨fl, s2⟩ := r
        have hfl := ends_sound (c := .ret (.call f as)) rfl hp
        cases fl with
        | norm => exact absurd rfl hfl
        | brk => cases h
        | ret v' =>
          cases h
          obtain ⟨vs, hc⟩ := calls_sound (f := f) rfl hp
          obtain ⟨m, h1, h2⟩ := within_sound hp2.2 (fun l hl => callN_typed fuel d _ _ _ _ _ l hl hc)
          refine ⟨m, h1, [], t.upper U, _, hd, by simp, (fun _ hx' => nomatch hx'), .inr (.inr ⟨p, hp1, ?_, ?_, by simpa using h2⟩)⟩
          · rw [show t.upper U = k.lit from hk]; exact hp2.1.1.symm
          · rintro ⟨e1, e2⟩
            rw [show t.upper U = k.lit from hk] at e1
            simp [e1, e2] at hp2
    · next x f as g bs hite =>
      rw [hite] at hp
      cases k with
      | none => simp at hstep
      | some k =>
        simp only [Bool.and_eq_true, beq_iff_eq] at hstep
        obtain ⟨⟨⟨hx1, hf⟩, hg⟩, hk1, hk2⟩ := hstep
        obtain ⟨b, hb1, hb2⟩ := cond_ok hp
        obtain ⟨n', t', h2, h3, h4⟩ := up_ok hb1
        rw [Nat.eq_of_beq_eq_true hx1] at h2
        simp only [evalOff, hs1e] at h2
        cases h2
        rw [hs1p] at h3
        have hd' := W_drop (U := U) hps h3
        obtain ⟨fl, s2⟩ := r
        have hfl := ends_sound (c := if b then .ret (.call f as) else .ret (.call g bs)) (by cases b <;> rfl) hb2
        cases fl with
        | norm => exact absurd rfl hfl
        | brk => cases h
        | ret v' =>
          cases h
          have hhead : ((W U toks ps.pos).drop (i + 1)).head? = some (t'.upper U) := by rw [hd']; rfl
          have hb' : b = true ↔ t'.upper U = "FUNCTION".toList := by
            rw [h4]
            unfold Token.inKws
            simp only [List.any_cons, List.any_nil, Bool.or_false, beq_iff_eq]
            exact Iff.rfl
          cases b with
          | true =>
            obtain ⟨vs, hc⟩ := calls_sound (f := f) rfl hb2
            obtain ⟨m, e1, e2⟩ := within_sound hf (fun l hl => callN_typed fuel d _ _ _ _ _ l hl hc)
            refine ⟨m, e1, [], t.upper U, _, hd, by simp, (fun _ hx' => nomatch hx'), .inl ⟨hk2, ?_, ?_, by simpa using e2⟩⟩
            · rw [show t.upper U = k.lit from hk]; exact hk1
            · rw [hhead, hb'.1 rfl]
          | false =>
            obtain ⟨vs, hc⟩ := calls_sound (f := g) rfl hb2
            obtain ⟨m, e1, e2⟩ := within_sound hg (fun l hl => callN_typed fuel d _ _ _ _ _ l hl hc)
            refine ⟨m, e1, [], t.upper U, _, hd, by simp, (fun _ hx' => nomatch hx'), .inr (.inl ⟨hk2, ?_, ?_, by simpa using e2⟩)⟩
            · rw [show t.upper U = k.lit from hk]; exact hk1
            · rw [hhead]
              intro e
              have := hb'.2 (Option.some.inj e)
              cases this
    · cases hstep

theorem prune_drop : prune (first (some .DROP)) (defs .parse_statement).body =
    .seq (.ite (.up (.lit 1) [.ALL, .ROW]) (.set v_node (.call .parse_drop_row_access_policy_statement [.var v_semicolon]))
      (.set v_node (.call .parse_drop_statement_general [.var v_semicolon]))) (.ret (.var v_node)) := by decide +kernel

theorem prune_export : prune (first (some .EXPORT)) (defs .parse_statement).body =
    .seq (.ite (.up (.lit 1) [.DATA]) (.set v_node (.call .parse_export_data_statement [.var v_semicolon]))
      (.set v_node (.call .parse_export_model_statement [.var v_semicolon]))) (.ret (.var v_node)) := by decide +kernel

theorem prune_begin : prune (first (some .BEGIN)) (defs .parse_statement).body =
    .seq (.seq (.ite (.or (.up (.lit 1) [.TRANSACTION, .sym_semi]) (.eof (.lit 1)))
      (.ret (.call .parse_transaction_statement [.var v_semicolon])) .skip)
      (.set v_node (.call .parse_begin_statement [.var v_semicolon]))) (.ret (.var v_node)) := by decide +kernel

theorem seq_ite {C : Ctx} {s : St} {c : Cond} {a b d : Cmd} {r : Flow × St}
    (h : exec C (.seq (.ite c a b) d) s = .ok r) :
    ∃ v, evalCond C s c = .ok v ∧ exec C (.seq (if v then a else b) d) s = .ok r := by
  simp only [exec] at h
  cases hc : evalCond C s c with
  | ok v =>
    refine ⟨v, rfl, ?_⟩
    rw [hc] at h
    cases v <;> exact h
  | err e => rw [hc] at h; cases h
  | panic e => rw [hc] at h; cases h
  | timeout => rw [hc] at h; cases h

theorem inKws_two {t : Token} {a b : Kw} : t.inKws U [a, b] = true ↔ t.upper U = a.lit ∨ t.upper U = b.lit := by
  unfold Token.inKws
  simp

theorem inKws_one {t : Token} {a : Kw} : t.inKws U [a] = true ↔ t.upper U = a.lit := by
  unfold Token.inKws
  simp

theorem W_two {ps : PS} (hps : ps.WF toks) {t : Token} {k : Kw} (h0 : getToken toks ps 0 = .ok t)
    (hk : t.upper U = k.lit) {t' : Token} (h1 : getToken toks ps 1 = .ok t') :
    W U toks ps.pos = k.lit :: t'.upper U :: (W U toks ps.pos).drop 2 := by
  have e0 := W_drop (U := U) hps h0
  have e1 := W_drop (U := U) hps h1
  rw [List.drop_zero, hk, e1] at e0
  exact e0

theorem eof_words (hends : Ends toks) {ps : PS} (hps : ps.WF toks) {t : Token} (h : getToken toks ps 1 = .ok t) :
    isEof toks ps 1 = true ↔ (W U toks ps.pos).drop 2 = [] := by
  obtain ⟨i, h1, h2⟩ := token_index h
  have hc : t.isComment = false := by
    obtain ⟨_, _, _, t'', h3, h4⟩ := getOffsetIndex_one h1
    rw [h2] at h3
    cases h3
    exact h4
  have hw := W_next (U := U) (ps' := { ps with pos := i }) hps h1
  dsimp only at hw
  have hd : (W U toks ps.pos).drop 2 = (ahead toks i).map (Token.upper U) := by
    rw [← List.drop_drop (i := 1) (j := 1), ← hw, W_cons h2 hc]
    rfl
  rw [hd, List.map_eq_nil_iff]
  unfold isEof ahead
  rw [h1]
  dsimp only
  rw [decide_eq_true_eq]
  constructor
  · intro hle
    rw [List.drop_eq_nil_of_le (by omega)]
    rfl
  · intro hnil
    by_contra hlt
    obtain ⟨z, hz, hzc⟩ := hends
    rw [List.getLast?_eq_getElem?] at hz
    have : z ∈ toks.drop (i + 1) := by
      refine List.mem_of_getElem? (i := toks.length - 1 - (i + 1)) ?_
      rw [List.getElem?_drop, show i + 1 + (toks.length - 1 - (i + 1)) = toks.length - 1 by omega]
      exact hz
    have : z ∈ (toks.drop (i + 1)).filter fun t => !t.isComment := List.mem_filter.2 ⟨this, by simp [hzc]⟩
    rw [hnil] at this
    cases this

/-- The statement after a label, and what is done with it. -/
def labelRest : Cmd := match (defs .parse_labeled_statement).body with
  | .seq _ (.seq _ (.seq _ (.seq _ (.seq _ r)))) => r
  | _ => .skip

theorem label_body : (defs .parse_labeled_statement).body =
    .seq (.set v_label (.construct .Identifier)) (.seq .next (.seq (.set v_colon (.construct .Symbol)) (.seq .next
      (.seq (.set v_stmt (.call .parse_statement [.bool false])) labelRest)))) := rfl

theorem label_types : ∀ ty ∈ NodeType.all, (flow types [ty] v_stmt false labelRest (some [ty])).isSome = true := by
  decide +kernel

theorem seq_norm {C : Ctx} {s : St} {a b : Cmd} {r : Flow × St} (ha : ∀ fl s', exec C a s = .ok (fl, s') → fl = .norm)
    (h : exec C (.seq a b) s = .ok r) : ∃ s1, exec C a s = .ok (.norm, s1) ∧ exec C b s1 = .ok r := by
  simp only [exec] at h
  cases hx : exec C a s with
  | ok q =>
    obtain ⟨fl, s1⟩ := q
    cases ha _ _ hx
    rw [hx] at h
    exact ⟨s1, rfl, h⟩
  | err e => rw [hx] at h; cases h
  | panic e => rw [hx] at h; cases h
  | timeout => rw [hx] at h; cases h

theorem seq_assoc {C : Ctx} {s : St} {a b c : Cmd} {r : Flow × St} (h : exec C (.seq (.seq a b) c) s = .ok r) :
    exec C (.seq a (.seq b c)) s = .ok r := by
  simp only [exec] at h ⊢
  cases hx : exec C a s with
  | ok q =>
    obtain ⟨fl, s1⟩ := q
    rw [hx] at h
    cases fl <;> exact h
  | err e => rw [hx] at h; exact h
  | panic e => rw [hx] at h; exact h
  | timeout => rw [hx] at h; exact h

theorem seq_ends {C : Ctx} {s : St} {a b : Cmd} {r : Flow × St} (ha : ends a = true)
    (h : exec C (.seq a b) s = .ok r) : exec C a s = .ok r := by
  simp only [exec] at h
  cases hx : exec C a s with
  | ok q =>
    obtain ⟨fl, s1⟩ := q
    rw [hx] at h
    cases fl with
    | norm => exact absurd rfl (ends_sound ha hx)
    | brk => exact h
    | ret v => exact h
  | err e => rw [hx] at h; exact h
  | panic e => rw [hx] at h; exact h
  | timeout => rw [hx] at h; exact h

theorem set_ok {C : Ctx} {s s' : St} {x : Var} {e : Exp} {fl : Flow} (h : exec C (.set x e) s = .ok (fl, s')) :
    fl = .norm ∧ ∃ v s1, evalExp C s e = .ok (v, s1) ∧ s' = { s1 with env := s1.env.set x v } := by
  simp only [exec] at h
  obtain ⟨⟨v, s1⟩, h1, h2⟩ := bind_ok_of h
  cases h2
  exact ⟨rfl, v, s1, h1, rfl⟩

theorem set_construct_ok {C : Ctx} {s s' : St} {x : Var} {nt : NodeType} {fl : Flow}
    (h : exec C (.set x (.construct nt)) s = .ok (fl, s')) : s'.ps = s.ps := by
  obtain ⟨_, v, s1, h1, rfl⟩ := set_ok h
  simp only [evalExp] at h1
  obtain ⟨n, _, h3⟩ := bind_ok_of h1
  cases h3
  rfl

theorem next_ok {C : Ctx} {s s' : St} {fl : Flow} (h : exec C .next s = .ok (fl, s')) :
    fl = .norm ∧ nextToken C.toks s.ps = .ok s'.ps := by
  simp only [exec] at h
  obtain ⟨p, h1, h2⟩ := bind_ok_of h
  cases h2
  exact ⟨rfl, h1⟩

/-- A labelled statement has the type of the statement after the label. -/
theorem label_ok (hends : Ends toks) {fuel d : Nat} {ps : PS} (hps : ps.WF toks) {s s' : St} (hs : s.ps = ps) {v : Val}
    (h : exec ⟨U, toks, fuel, callN U defs toks fuel d⟩ (defs .parse_labeled_statement).body s = .ok (.ret v, s')) :
    ∃ ps2 v2 ps3, ps2.WF toks ∧ (∃ w c, W U toks ps.pos = w :: c :: W U toks ps2.pos) ∧
      callN U defs toks fuel d .parse_statement [.bool false] ps2 = .ok (v2, ps3) ∧
      ∀ m, v2 = .node m → ∃ n, v = .node n ∧ n.ty = m.ty := by
  rw [label_body] at h
  obtain ⟨s1, h1, h⟩ := seq_norm (fun _ _ h => (set_ok h).1) h
  obtain ⟨s2, h2, h⟩ := seq_norm (fun _ _ h => (next_ok h).1) h
  obtain ⟨s3, h3, h⟩ := seq_norm (fun _ _ h => (set_ok h).1) h
  obtain ⟨s4, h4, h⟩ := seq_norm (fun _ _ h => (next_ok h).1) h
  obtain ⟨s5, h5, h⟩ := seq_norm (fun _ _ h => (set_ok h).1) h
  have e1 : s1.ps = ps := (set_construct_ok h1).trans hs
  have e2 := (next_ok h2).2
  rw [e1] at e2
  have e3 := set_construct_ok h3
  have e4 := (next_ok h4).2
  rw [e3] at e4
  obtain ⟨w1, _, w2⟩ := nextToken_wf hends hps e2
  obtain ⟨w3, _, w4⟩ := nextToken_wf hends w1 e4
  obtain ⟨_, v2, s6, h6, e5⟩ := set_ok h5
  simp only [evalExp, evalAtoms] at h6
  obtain ⟨vs, h7, h6⟩ := bind_ok_of h6
  have : vs = [.bool false] := by
    simp only [evalAtom] at h7
    cases h7
    rfl
  subst this
  obtain ⟨⟨v3, p3⟩, h8, h6⟩ := bind_ok_of h6
  cases h6
  refine ⟨s4.ps, v3, p3, w3, ?_, h8, ?_⟩
  · have k1 := W_next (U := U) hps w2
    have k2 := W_next (U := U) w1 w4
    obtain ⟨t0, a1, a2⟩ := hps.tok
    obtain ⟨t1, b1, b2⟩ := w1.tok
    rw [W_cons a1 a2, List.drop_succ_cons, List.drop_zero] at k1
    rw [W_cons b1 b2, List.drop_succ_cons, List.drop_zero] at k2
    exact ⟨_, _, by rw [W_cons a1 a2, ← k1, W_cons b1 b2, ← k2]⟩
  · rintro m rfl
    obtain ⟨a, ha⟩ := Option.isSome_iff_exists.1 (label_types m.ty (AI.mem_nodeType_all m.ty))
    have := flow_sound (C := ⟨U, toks, fuel, callN U defs toks fuel d⟩) (callN_typed fuel d) (s := s5) ha
      (by intro l hl; cases hl; rw [e5]; exact ⟨m, by simp [Env.set], by simp⟩) h
    obtain ⟨n, e, hn⟩ := this
    exact ⟨n, e, by simpa using hn⟩

theorem tables_kw : (∀ p ∈ createTypes, ∃ k ∈ Kw.all, p.1.toList = k.lit) ∧
    (∀ p ∈ alterTypes, ∃ k ∈ Kw.all, p.1.toList = k.lit) ∧
    (∀ w ∈ firstWords, ∃ k ∈ Kw.all, w.toList = k.lit) := by decide +kernel

theorem statement_type (hends : Ends toks) (fuel : Nat) : ∀ (d : Nat) {vs : List Val} {ps ps' : PS} {v : Val},
    ps.WF toks → callN U defs toks fuel d .parse_statement vs ps = .ok (v, ps') →
    ∃ n, v = .node n ∧ StatementType (W U toks ps.pos) n.ty := by
  intro d
  induction d using Nat.strongRecOn with
  | _ d ih =>
  intro vs ps ps' v hps h
  cases d with
  | zero => cases h
  | succ d =>
  obtain ⟨s', he, _⟩ := runBody_ok h
  obtain ⟨t, h1, h2⟩ := hps.tok
  have ht := getToken_zero h1
  have hw0 := W_cons (U := U) h1 h2
  obtain ⟨k, hk⟩ := wordIs_exists U t
  have hp := prune_sound (first_right (C := ⟨U, toks, fuel, callN U defs toks fuel d⟩)
    (s := ⟨ps, bindParams (defs .parse_statement).params vs⟩) ht hk) he
  have label : (∀ w ∈ firstWords, t.upper U ≠ w.toList) →
      calls (prune (first k) (defs .parse_statement).body) = some .parse_labeled_statement →
      ∃ n, v = .node n ∧ StatementType (W U toks ps.pos) n.ty := by
    intro hw hc
    obtain ⟨as, hcall⟩ := calls_sound hc hp
    cases d with
    | zero => cases hcall
    | succ d =>
      obtain ⟨s2, he2, _⟩ := runBody_ok hcall
      obtain ⟨ps2, v2, ps3, g1, ⟨w, c, g2⟩, g3, g4⟩ := label_ok hends hps rfl he2
      obtain ⟨m, rfl, g5⟩ := ih d (by omega) g1 g3
      obtain ⟨n, rfl, g6⟩ := g4 m rfl
      refine ⟨n, rfl, ?_⟩
      rw [g2, g6]
      refine .labelled ?_ g5
      rw [hw0] at g2
      rw [← (List.cons.inj g2).1]
      exact hw
  cases k with
  | none =>
    refine label ?_ dispatch_none
    intro w hw e
    obtain ⟨k, _, hk'⟩ := tables_kw.2.2 w hw
    exact hk k (e.trans hk')
  | some k =>
    have hk' : t.upper U = k.lit := hk
    have hd := dispatch_ok k (AI.mem_kw_all k)
    unfold dispatch at hd
    split at hd
    · next hc =>
      refine label ?_ hc
      intro w hw e
      have := List.all_eq_true.1 hd w hw
      rw [hk'] at e
      simp [e] at this
    · next hc =>
      obtain ⟨⟨w, tys⟩, hmem, hd⟩ := List.any_eq_true.1 hd
      simp only [Bool.and_eq_true, beq_iff_eq] at hd
      obtain ⟨as, hcall⟩ := calls_sound hc hp
      cases d with
      | zero => cases hcall
      | succ d =>
        obtain ⟨s2, he2, _⟩ := runBody_ok hcall
        have hp2 := prune_sound (first_right (C := ⟨U, toks, fuel, callN U defs toks fuel d⟩)
          (s := ⟨ps, bindParams (defs .parse_select_statement).params as⟩) ht hk) he2
        obtain ⟨a, ha⟩ := Option.isSome_iff_exists.1 hd.2
        have := flow_sound (C := ⟨U, toks, fuel, callN U defs toks fuel d⟩) (callN_typed fuel d) ha (holds_none _) hp2
        obtain ⟨n, e, hn⟩ := this
        refine ⟨n, e, ?_⟩
        rw [hw0, hk', ← hd.1]
        exact .plain hmem hn
    · next f hc =>
      obtain ⟨⟨w, tys⟩, hmem, hd⟩ := List.any_eq_true.1 hd
      simp only [Bool.and_eq_true, beq_iff_eq] at hd
      obtain ⟨as, hcall⟩ := calls_sound hc hp
      obtain ⟨n, e, hn⟩ := within_sound hd.2 (fun l hl => callN_typed fuel d _ _ _ _ _ l hl hcall)
      refine ⟨n, e, ?_⟩
      rw [hw0, hk', ← hd.1]
      exact .plain hmem hn
    · next hc =>
      have hscan : ∀ {tbl : List (String × NodeType)} {sb : Cmd} {line : Nat},
          prune (first (some k)) (defs .parse_statement).body =
            .seq (.scan v_offset 1 (some (.nat 6)) sb) (.fail (.lit 0) line) →
          (∀ k ∈ Kw.all, scanStep sb tbl (some k) = true) ∧ scanStep sb tbl none = true →
          (∀ p ∈ tbl, ∃ k ∈ Kw.all, p.1.toList = k.lit) → testsOffset sb = true →
          Found tbl v 5 ((W U toks ps.pos).drop 1) := by
        intro tbl sb line hpr hok hkw ht
        rw [hpr] at hp
        refine scan_found (fuel := fuel) (d := d) hok hkw ht hps 5 1 ⟨ps, bindParams (defs .parse_statement).params vs⟩ rfl (s' := s') ?_
        simp only [exec, evalAtom] at hp
        cases hx : scanLoop (exec ⟨U, toks, fuel, callN U defs toks fuel d⟩ sb) v_offset (fun s => .ok (.norm, s)) 5 1
            ⟨ps, bindParams (defs .parse_statement).params vs⟩ with
        | ok q =>
          rw [hx] at hp
          obtain ⟨fl, s1⟩ := q
          cases fl with
          | norm =>
            dsimp only at hp
            obtain ⟨_, _, h4⟩ := bind_ok_of hp
            cases h4
          | brk => cases hp
          | ret w => exact hp
        | err e => rw [hx] at hp; cases hp
        | panic e => rw [hx] at hp; cases hp
        | timeout => rw [hx] at hp; cases hp
      have htwo : ∀ {c : Cond} {f g : Fn} {as bs : List Atom}, prune (first (some k)) (defs .parse_statement).body =
            .seq (.ite c (.set v_node (.call f as)) (.set v_node (.call g bs))) (.ret (.var v_node)) →
          ∃ b, evalCond ⟨U, toks, fuel, callN U defs toks fuel d⟩
              ⟨ps, bindParams (defs .parse_statement).params vs⟩ c = .ok b ∧
            ∀ T, within [T] (types (if b then f else g)) = true → ∃ n, v = .node n ∧ n.ty = T := by
        intro c f g as bs hpr
        rw [hpr] at hp
        obtain ⟨b, hb, hx⟩ := seq_ite hp
        refine ⟨b, hb, fun T hT => ?_⟩
        have hcl : calls (.seq (if b then .set v_node (.call f as) else .set v_node (.call g bs)) (.ret (.var v_node))) =
            some (if b then f else g) := by cases b <;> rfl
        obtain ⟨as, hcall⟩ := calls_sound hcl hx
        obtain ⟨n, e, hn⟩ := within_sound hT (fun l hl => callN_typed fuel d _ _ _ _ _ l hl hcall)
        exact ⟨n, e, by simpa using hn⟩
      unfold mem at hd
      obtain ⟨k', hk1, hk2⟩ := List.any_eq_true.1 hd
      have := AI.kw_inj (Nat.eq_of_beq_eq_true hk2)
      subst this
      simp only [List.mem_cons, List.not_mem_nil, or_false] at hk1
      rcases hk1 with rfl | rfl | rfl | rfl | rfl
      · obtain ⟨n, e, skipped, w, ws', g1, g2, g3, g4⟩ := hscan prune_create createScan_ok tables_kw.1 (by decide +kernel)
        refine ⟨n, e, ?_⟩
        rw [hw0, List.drop_succ_cons, List.drop_zero] at g1
        rw [hw0, hk', g1]
        rcases g4 with ⟨_, rfl, g5, g6⟩ | ⟨_, rfl, g5, g6⟩ | ⟨p, hp', rfl, g5, g6⟩
        · cases ws' with
          | nil => cases g5
          | cons w' ws' =>
            cases g5
            rw [g6]
            exact .tableFunction g2 g3
        · rw [g6]
          exact .create (w := "TABLE") g2 g3 (by decide) (fun _ => g5)
        · rw [g6]
          exact .create g2 g3 hp' (fun e => absurd ⟨by rw [e], rfl⟩ g5)
      · obtain ⟨n, e, skipped, w, ws', g1, g2, g3, g4⟩ := hscan prune_alter alterScan_ok tables_kw.2.1 (by decide +kernel)
        refine ⟨n, e, ?_⟩
        rw [hw0, List.drop_succ_cons, List.drop_zero] at g1
        rw [hw0, hk', g1]
        rcases g4 with ⟨g4, _⟩ | ⟨g4, _⟩ | ⟨p, hp', rfl, _, g6⟩
        · cases g4
        · cases g4
        · rw [g6]
          exact .alter g2 g3 hp'
      · obtain ⟨b, hb, hT⟩ := htwo prune_drop
        obtain ⟨_, t', g1, g2, g3⟩ := up_ok hb
        cases g1
        rw [W_two hps ht hk' g2]
        cases b with
        | true =>
          obtain ⟨n, e, hn⟩ := hT .DropRowAccessPolicyStatement (by decide +kernel)
          refine ⟨n, e, ?_⟩
          rw [hn]
          exact .dropPolicy (inKws_two.1 g3.symm)
        | false =>
          obtain ⟨n, e, hn⟩ := hT .DropStatement (by decide +kernel)
          refine ⟨n, e, ?_⟩
          rw [hn]
          refine .drop fun h => ?_
          have := inKws_two (U := U) (t := t') (a := .ALL) (b := .ROW) |>.2 h
          rw [this] at g3
          cases g3
      · rw [prune_begin] at hp
        obtain ⟨b, t', g1, g2, hx⟩ : ∃ b t', getToken toks ps 1 = .ok t' ∧
            (b = true ↔ t'.inKws U [.TRANSACTION, .sym_semi] = true ∨ isEof toks ps 1 = true) ∧
            exec ⟨U, toks, fuel, callN U defs toks fuel d⟩
              (if b then .ret (.call .parse_transaction_statement [.var v_semicolon]) else
                .seq (.set v_node (.call .parse_begin_statement [.var v_semicolon])) (.ret (.var v_node)))
              ⟨ps, bindParams (defs .parse_statement).params vs⟩ = .ok (.ret v, s') := by
          obtain ⟨b, hc, hx⟩ := seq_ite (seq_assoc hp)
          simp only [evalCond] at hc
          obtain ⟨b1, hb1, hc'⟩ := bind_ok_of hc
          obtain ⟨_, t', q1, q2, q3⟩ := up_ok (o := .lit 1) hb1
          cases q1
          refine ⟨b, t', q2, ?_, ?_⟩
          · rw [← q3]
            cases b1 with
            | true => cases hc'; simp
            | false =>
              simp only [evalOff] at hc'
              cases hc'
              simp
          · cases b with
            | true => exact seq_ends rfl hx
            | false => exact hx
        rw [W_two hps ht hk' g1]
        rw [eof_words (U := U) hends hps g1, inKws_two] at g2
        cases b with
        | true =>
          obtain ⟨as, hcall⟩ := calls_sound (f := .parse_transaction_statement) rfl hx
          obtain ⟨n, e, hn⟩ := within_sound (S := [.TransactionStatement]) (a := types .parse_transaction_statement)
            (by decide +kernel) (fun l hl => callN_typed fuel d _ _ _ _ _ l hl hcall)
          refine ⟨n, e, ?_⟩
          rw [List.mem_singleton.1 hn]
          exact .transaction (or_assoc.1 (g2.1 rfl))
        | false =>
          obtain ⟨as, hcall⟩ := calls_sound (f := .parse_begin_statement) rfl hx
          obtain ⟨n, e, hn⟩ := within_sound (S := [.BeginStatement]) (a := types .parse_begin_statement)
            (by decide +kernel) (fun l hl => callN_typed fuel d _ _ _ _ _ l hl hcall)
          refine ⟨n, e, ?_⟩
          rw [List.mem_singleton.1 hn]
          exact .block fun h => by cases g2.2 (or_assoc.2 h)
      · obtain ⟨b, hb, hT⟩ := htwo prune_export
        obtain ⟨_, t', g1, g2, g3⟩ := up_ok hb
        cases g1
        rw [W_two hps ht hk' g2]
        cases b with
        | true =>
          obtain ⟨n, e, hn⟩ := hT .ExportDataStatement (by decide +kernel)
          refine ⟨n, e, ?_⟩
          rw [hn, inKws_one.1 g3.symm]
          exact .exportData
        | false =>
          obtain ⟨n, e, hn⟩ := hT .ExportModelStatement (by decide +kernel)
          refine ⟨n, e, ?_⟩
          rw [hn]
          refine .exportModel fun h => ?_
          have := inKws_one (U := U) (t := t') (a := .DATA) |>.2 h
          rw [this] at g3
          cases g3

end Verif.Kind
