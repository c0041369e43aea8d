import Verif.Proofs.AcceptTok
import Verif.Model.Lib
/-! Soundness of the acceptance analysis, part 3: states and conditions. -/
namespace Verif.GI
open AI Spec Core

/-- What the proof needs to know of the list of tokens: the last one is either the end of the input, with an
empty literal, or a comment after a `;`; the others are no comments and have literals; and words are only
touched by symbols and strings. -/
structure TokOk (toks : List Token) : Prop where
  last : ∃ init e, toks = init ++ [e] ∧ (∀ t ∈ init, t.isComment = false ∧ t.literal ≠ []) ∧
    ((e.isComment = false ∧ e.literal = []) ∨
      (e.isComment = true ∧ ∃ i s, init = i ++ [s] ∧ gcls s.literal = Kw.sym_semi.ctorIdx))
  apart : ∀ (i : Nat) a b, toks[i]? = some a → toks[i + 1]? = some b → isWordLit a.literal = true →
    touchM.testBit (gcls b.literal) = false → Interp.adjacentToks a b = false

/-- No comment. -/
def ncb (t : Token) : Bool := !t.isComment

/-- The classes of the tokens from a position on. -/
def view (toks : List Token) (pos : Nat) : List Nat := ((toks.drop pos).filter ncb).map fun t => gcls t.literal

theorem filter_init {init : List Token} (h : ∀ t ∈ init, t.isComment = false ∧ t.literal ≠ []) :
    init.filter ncb = init := by
  rw [List.filter_eq_self]
  intro t ht
  simp [ncb, (h t ht).1]

theorem view_get {toks : List Token} (ok : TokOk toks) {pos k c : Nat} (h : (view toks pos)[k]? = some c) :
    ∃ t, toks[pos + k]? = some t ∧ t.isComment = false ∧ gcls t.literal = c := by
  obtain ⟨init, e, rfl, hi, he⟩ := ok.last
  unfold view at h
  rw [List.getElem?_map, Option.map_eq_some_iff] at h
  obtain ⟨t, ht, hc⟩ := h
  have hnc : t.isComment = false := by
    have := (List.mem_filter.1 (List.mem_of_getElem? ht)).2
    simpa [ncb] using this
  refine ⟨t, ?_, hnc, hc⟩
  rcases he with ⟨he, _⟩ | ⟨he, _⟩
  · have : ((init ++ [e]).drop pos).filter ncb = (init ++ [e]).drop pos := by
      rw [List.filter_eq_self]
      intro t ht
      rcases List.mem_append.1 (List.mem_of_mem_drop ht) with h | h
      · simp [ncb, (hi t h).1]
      · rw [List.mem_singleton.1 h]; simp [ncb, he]
    rw [this, List.getElem?_drop] at ht
    exact ht
  · have : ((init ++ [e]).drop pos).filter ncb = init.drop pos := by
      rw [List.drop_append, List.filter_append, filter_init (fun t ht => hi t (List.mem_of_mem_drop ht))]
      have : ([e].drop (pos - init.length)).filter ncb = [] := by
        rw [List.filter_eq_nil_iff]
        intro t ht
        rw [List.mem_singleton.1 (List.mem_of_mem_drop ht)]
        simp [ncb, he]
      rw [this, List.append_nil]
    rw [this, List.getElem?_drop] at ht
    rw [List.getElem?_append_left (List.getElem?_eq_some_iff.1 ht).1]
    exact ht

/-- The tokens before one that is no comment are no comments. -/
theorem nc_before {toks : List Token} (ok : TokOk toks) {i j : Nat} {t u : Token} (h : toks[i]? = some t)
    (hc : t.isComment = false) (hj : j ≤ i) (hu : toks[j]? = some u) : u.isComment = false := by
  obtain ⟨init, e, rfl, hi, he⟩ := ok.last
  have h1 := (List.getElem?_eq_some_iff.1 h).1
  have h2 := (List.getElem?_eq_some_iff.1 hu).1
  rw [List.length_append, List.length_singleton] at h1 h2
  by_cases hl : j < init.length
  · rw [List.getElem?_append_left hl] at hu
    exact (hi u (List.mem_of_getElem? hu)).1
  · have : i = j := by omega
    subst this
    rw [h] at hu
    cases hu
    exact hc

theorem scanFrom_nc (off : Nat) : ∀ (l : List Token) (cnt idx : Nat),
    (∀ j t, j < off - cnt → l[j]? = some t → t.isComment = false) →
    cnt < off → off - cnt ≤ l.length → scanFrom off cnt idx l = some (idx + (off - cnt - 1))
  | [], cnt, idx, _, h1, h2 => by simp at h2; omega
  | t :: l, cnt, idx, h, h1, h2 => by
    have ht := h 0 t (by omega) rfl
    simp only [scanFrom]
    rw [ht]
    by_cases hc : off ≤ cnt + 1
    · simp only [Bool.false_eq_true, if_false, if_pos hc]
      congr 1
      omega
    · simp only [Bool.false_eq_true, if_false, if_neg hc]
      rw [scanFrom_nc off l (cnt + 1) (idx + 1) (fun j t hj ht => h (j + 1) t (by omega) (by simpa using ht)) (by omega)
        (by simp at h2; omega)]
      congr 1
      omega

theorem offsetIndex_at {toks : List Token} (ok : TokOk toks) {ps : PS} {k : Nat} {t : Token}
    (h : toks[ps.pos + k]? = some t) (hc : t.isComment = false) : getOffsetIndex toks ps k = .ok (ps.pos + k) := by
  unfold getOffsetIndex
  split
  · next hk => subst hk; rfl
  · next hk =>
    have hlt : ps.pos + k < toks.length := (List.getElem?_eq_some_iff.1 h).1
    rw [scanFrom_nc k _ 0 _ (fun j u hj hu => by
      rw [List.getElem?_drop] at hu
      exact nc_before ok h hc (by omega) hu) (by omega)
      (by rw [List.length_drop]; omega)]
    simp only [Out.ok.injEq]
    omega

theorem getToken_at {toks : List Token} (ok : TokOk toks) {ps : PS} {k : Nat} {t : Token}
    (h : toks[ps.pos + k]? = some t) (hc : t.isComment = false) : getToken toks ps k = .ok t := by
  unfold getToken
  rw [offsetIndex_at ok h hc]
  simp only [tokAt, h]

theorem eof_at {toks : List Token} (ok : TokOk toks) {i : Nat} {t : Token} (h : toks[i]? = some t)
    (hc : t.isComment = false) : toks.length - 1 ≤ i ↔ t.literal = [] := by
  obtain ⟨init, e, rfl, hi, he⟩ := ok.last
  rw [List.length_append, List.length_singleton, Nat.add_sub_cancel]
  have hlt := (List.getElem?_eq_some_iff.1 h).1
  rw [List.length_append, List.length_singleton] at hlt
  constructor
  · intro hle
    have : i = init.length := by omega
    subst this
    simp at h
    rcases he with he | he
    · rw [← h, he.2]
    · rw [h, hc] at he; simp at he
  · intro ht
    by_contra hc
    rw [List.getElem?_append_left (by omega)] at h
    exact (hi t (List.mem_of_getElem? h)).2 ht

theorem isEof_at {toks : List Token} (ok : TokOk toks) {ps : PS} {k : Nat} {t : Token}
    (h : toks[ps.pos + k]? = some t) (hc : t.isComment = false) :
    isEof toks ps k = decide (gcls t.literal = EOFC) := by
  unfold isEof
  rw [offsetIndex_at ok h hc]
  simp only [eof_at ok h hc, gcls_eof]

theorem view_last {toks : List Token} (ok : TokOk toks) {pos : Nat} {u : List Nat} {d : Nat}
    (h : view toks pos = u ++ [d]) : d = EOFC ∨ d = Kw.sym_semi.ctorIdx := by
  obtain ⟨init, e, rfl, hi, he⟩ := ok.last
  unfold view at h
  rcases he with ⟨he, he'⟩ | ⟨he, i, s, rfl, hs⟩
  · left
    have hlt : pos < init.length + 1 := by
      by_contra hc
      rw [List.drop_eq_nil_of_le (by simp; omega)] at h
      simp at h
    rw [List.drop_append_of_le_length (by omega), List.filter_append, List.map_append] at h
    have h2 : [e].filter ncb = [e] := by simp [ncb, he]
    rw [h2] at h
    have := (List.append_inj_right' h rfl)
    simp only [List.map_cons, List.map_nil, List.cons.injEq, and_true] at this
    rw [← this, he']
    rfl
  · right
    have h1 : ((i ++ [s] ++ [e]).drop pos).filter ncb = (i ++ [s]).drop pos := by
      rw [List.drop_append, List.filter_append, filter_init (fun t ht => hi t (List.mem_of_mem_drop ht))]
      have : ([e].drop (pos - (i ++ [s]).length)).filter ncb = [] := by
        rw [List.filter_eq_nil_iff]
        intro t ht
        rw [List.mem_singleton.1 (List.mem_of_mem_drop ht)]
        simp [ncb, he]
      rw [this, List.append_nil]
    rw [h1] at h
    have hlt : pos < i.length + 1 := by
      by_contra hc
      rw [List.drop_eq_nil_of_le (by simp; omega)] at h
      simp at h
    rw [List.drop_append_of_le_length (by omega), List.map_append] at h
    have := (List.append_inj_right' h rfl)
    simp only [List.map_cons, List.map_nil, List.cons.injEq, and_true] at this
    rw [← this, hs]

theorem view_succ {toks : List Token} (ok : TokOk toks) {pos : Nat} {c : Nat} {w : List Nat}
    (h : view toks pos = c :: w) : view toks (pos + 1) = w := by
  obtain ⟨t, ht, hc, _⟩ := view_get ok (pos := pos) (k := 0) (c := c) (by rw [h]; rfl)
  rw [Nat.add_zero] at ht
  obtain ⟨hl, he⟩ := List.getElem?_eq_some_iff.1 ht
  unfold view at h ⊢
  rw [List.drop_eq_getElem_cons hl, he, List.filter_cons_of_pos (by simp [ncb, hc]), List.map_cons] at h
  exact (List.cons.inj h).2

theorem next_at {toks : List Token} (ok : TokOk toks) {ps : PS} {c d : Nat} {w : List Nat}
    (h : view toks ps.pos = c :: d :: w) : ∃ ps', nextToken toks ps = .ok ps' ∧ ps'.pos = ps.pos + 1 := by
  obtain ⟨t, ht, hc, _⟩ := view_get ok (k := 1) (c := d) (by rw [h]; rfl)
  unfold nextToken
  rw [offsetIndex_at ok ht hc]
  simp only [tokAt, ht]
  split
  · exact ⟨_, rfl, rfl⟩
  · exact ⟨_, rfl, rfl⟩

/-- The value of a variable is described by an abstract value. -/
def GVRel (U : Unicode) : GV → Val → Prop
  | .bool b, v => v = .bool b
  | .nat n, v => v = .nat n
  | .natB n, v => ∃ k, k ≤ n ∧ v = .nat k
  | .kws ks, v => v = .kws ks
  | .str m, v => ∃ l, v = .str (U.upper l) ∧ m.testBit (gcls l) = true

/-- The variables are described by the known ones. -/
def EnvRel (U : Unicode) (d : List (Var × GV)) (env : Env) : Prop :=
  ∀ x v, GS.look x d = some v → GVRel U v (env x)

/-- A state is described by an abstract one; `r` are the classes of the unknown rest. -/
structure Sim (G : Tables) (U : Unicode) (toks : List Token) (r : List Nat) (s : GS) (st : St) : Prop where
  env : EnvRel U s.env st.env
  str : ∃ u, view toks st.ps.pos = u ++ r ∧ M G s.X u
  rest : RestOk s.m r

/-- An outcome that is no error. -/
def Good {α : Type} (P : α → Prop) : Out α → Prop
  | .ok a => P a
  | .err _ => False
  | .panic p => p ≠ .emptyLiteral
  | .timeout => True

theorem stuck_good {α : Type} {P : α → Prop} : Good P (.panic .stuck) := by
  show Panic.stuck ≠ Panic.emptyLiteral
  decide

theorem Good.imp {α : Type} {P Q : α → Prop} {o : Out α} (h : Good P o) (hi : ∀ a, P a → Q a) : Good Q o := by
  cases o with
  | ok a => exact hi a h
  | err e => exact h
  | panic p => exact h
  | timeout => trivial

theorem Good.bind {α β : Type} {P : α → Prop} {Q : β → Prop} {o : Out α} {f : α → Out β} (h : Good P o)
    (hf : ∀ a, P a → Good Q (f a)) : Good Q (o >>= f) := by
  cases o with
  | ok a => exact hf a h
  | err e => exact h
  | panic p => exact h
  | timeout => trivial

theorem look_forget (x y : Var) : ∀ d : List (Var × GV),
    GS.look y (GS.forget x d) = if y = x then none else GS.look y d
  | [] => by simp [GS.forget, GS.look]
  | (z, v) :: d => by
    have ih := look_forget x y d
    simp only [GS.forget]
    cases hz : Nat.beq x z with
    | true =>
      have := Nat.eq_of_beq_eq_true hz
      subst this
      simp only [cond_true, ih, GS.look]
      by_cases hy : y = x
      · simp [hy]
      · have : Nat.beq y x = false := by rw [← Bool.not_eq_true, Nat.beq_eq]; exact hy
        simp [hy, this]
    | false =>
      simp only [cond_false, GS.look, ih]
      by_cases hy : y = x
      · subst hy; simp [hz]
      · simp [hy]

theorem look_insert (x y : Var) (v : GV) : ∀ d : List (Var × GV), GS.look x d = none →
    GS.look y (GS.insert x v d) = if y = x then some v else GS.look y d
  | [], _ => by
    simp only [GS.insert, GS.look]
    by_cases hy : y = x
    · subst hy; simp [show Nat.beq y y = true from Nat.beq_refl y]
    · have : Nat.beq y x = false := by rw [← Bool.not_eq_true, Nat.beq_eq]; exact hy
      simp [hy, this]
  | (z, w) :: d, h => by
    simp only [GS.insert]
    simp only [GS.look] at h
    cases hz : Nat.beq x z with
    | true => rw [hz] at h; simp at h
    | false =>
      rw [hz] at h
      have hne : x ≠ z := by
        rintro rfl
        rw [Nat.beq_refl] at hz; simp at hz
      cases hb : Nat.ble x z with
      | true =>
        simp only [cond_true, GS.look]
        by_cases hy : y = x
        · subst hy; simp [show Nat.beq y y = true from Nat.beq_refl y]
        · have : Nat.beq y x = false := by rw [← Bool.not_eq_true, Nat.beq_eq]; exact hy
          simp [hy, this]
      | false =>
        simp only [cond_false, GS.look, look_insert x y v d h]
        by_cases hy : y = x
        · subst hy; simp [hz]
        · simp [hy]

theorem look_set (s : GS) (x y : Var) (v : Option GV) :
    GS.look y (s.set x v).env = if y = x then v else GS.look y s.env := by
  obtain ⟨d, X, m⟩ := s
  cases v with
  | none => simp only [GS.set]; exact look_forget x y d
  | some v =>
    simp only [GS.set]
    rw [look_insert x y v _ (by rw [look_forget]; simp), look_forget]
    by_cases hy : y = x <;> simp [hy]

theorem set_X (s : GS) (x : Var) (v : Option GV) : (s.set x v).X = s.X ∧ (s.set x v).m = s.m := by
  obtain ⟨d, X, m⟩ := s
  cases v <;> exact ⟨rfl, rfl⟩

/-- An abstract value, if known, describes the value. -/
def ORel (U : Unicode) : Option GV → Val → Prop
  | none, _ => True
  | some g, v => GVRel U g v

section
variable {G : Tables} (hG : TOk G) {U : Unicode} (hU : U.Lawful) {toks : List Token} (ok : TokOk toks)
variable {r : List Nat}

theorem Sim.set {s : GS} {st : St} (h : Sim G U toks r s st) (x : Var) (g : Option GV) {v : Val}
    (hv : ORel U g v) : Sim G U toks r (s.set x g) { st with env := st.env.set x v } := by
  refine ⟨?_, ?_, ?_⟩
  · intro y w hy
    rw [look_set] at hy
    simp only [Env.set]
    split at hy
    · next hyx => subst hyx hy; simpa [ORel] using hv
    · next hyx => rw [if_neg hyx]; exact h.env y w hy
  · rw [(set_X s x g).1]; exact h.str
  · rw [(set_X s x g).2]; exact h.rest

theorem Sim.refine {s : GS} {st : St} (h : Sim G U toks r s st) (x : Var) (g : GV)
    (hv : GVRel U g (st.env x)) : Sim G U toks r (s.set x (some g)) st := by
  have := h.set x (some g) hv
  refine ⟨?_, this.str, this.rest⟩
  intro y w hy
  have h1 := this.env y w hy
  simp only [Env.set] at h1
  split at h1
  · next hyx => subst hyx; exact h1
  · exact h1

theorem Sim.withX {s : GS} {st : St} (h : Sim G U toks r s st) {X : List GSym} {m : Mask} {u : List Nat}
    (hv : view toks st.ps.pos = u ++ r) (hX : M G X u) (hm : RestOk m r) :
    Sim G U toks r (s.withX X m) st := ⟨h.env, ⟨u, hv, hX⟩, hm⟩

include hG ok in
theorem ask_sound {s : GS} {st : St} (h : Sim G U toks r s st) {k : Nat} {tm fm : Mask}
    {l : List (Bool × GS)} (ha : ask G s k tm fm = .ok l) :
    ∃ t, (toks[st.ps.pos + k]? = some t ∧ t.isComment = false) ∧ getToken toks st.ps k = .ok t ∧
      ∀ b : Bool, (b = true → tm.testBit (gcls t.literal) = true) →
        (b = false → fm.testBit (gcls t.literal) = true) → ∃ s', (b, s') ∈ l ∧ Sim G U toks r s' st := by
  obtain ⟨u, hv, hu⟩ := h.str
  unfold ask at ha
  split at ha
  · simp at ha
  · next q hq =>
    cases ha
    obtain ⟨c, hc, hs⟩ := split_sound hG (fun d hd => view_last ok (by rw [hv, hd])) hq hu h.rest
    rw [← hv] at hc
    obtain ⟨t, ht, hnc, htc⟩ := view_get ok hc
    refine ⟨t, ⟨ht, hnc⟩, getToken_at ok ht hnc, fun b h1 h2 => ?_⟩
    rw [htc] at h1 h2
    obtain ⟨X', m', h3, h4, h5⟩ := hs b h1 h2
    exact ⟨_, List.mem_map.2 ⟨_, h3, rfl⟩, h.withX hv h4 h5⟩

include hG ok in
/-- A question about a token that is decided by its class. -/
theorem ask_good {s : GS} {st : St} (h : Sim G U toks r s st) {k : Nat} {tm fm : Mask}
    {l : List (Bool × GS)} (ha : ask G s k tm fm = .ok l) {f : Token → Bool}
    (ht : ∀ t, f t = true → tm.testBit (gcls t.literal) = true)
    (hf : ∀ t, f t = false → fm.testBit (gcls t.literal) = true) :
    ∃ t, (toks[st.ps.pos + k]? = some t ∧ t.isComment = false) ∧ getToken toks st.ps k = .ok t ∧
      ∃ s', (f t, s') ∈ l ∧ Sim G U toks r s' st := by
  obtain ⟨t, h1, h2, h3⟩ := ask_sound hG ok h ha
  exact ⟨t, h1, h2, h3 (f t) (ht t) (hf t)⟩

theorem evalO_sound {s : GS} {st : St} (h : Sim G U toks r s st) {o : Off} {k : Nat}
    (ho : evalO s o = .ok k) : Interp.evalOff st.env o = .ok k := by
  cases o with
  | lit n => simpa [evalO, Interp.evalOff] using ho
  | var x n =>
    simp only [evalO] at ho
    split at ho
    · next m hm =>
      cases ho
      have := h.env x _ hm
      simp only [GVRel] at this
      simp [Interp.evalOff, this]
    · simp at ho

/-- The level of a token. -/
def lvlT (U : Unicode) (t : Token) : List (Nat × List Kw) → Nat
  | [] => usizeMax
  | (n, ks) :: l => if t.inKws U ks then n else lvlT U t l

theorem precTable_eq (U : Unicode) (t : Token) : precTable U t = lvlT U t levels := rfl

theorem lvlT_cases (U : Unicode) (t : Token) : ∀ L : List (Nat × List Kw),
    lvlT U t L = usizeMax ∨ ∃ n ks, (n, ks) ∈ L ∧ lvlT U t L = n ∧ t.inKws U ks = true
  | [] => .inl rfl
  | (n, ks) :: L => by
    simp only [lvlT]
    split
    · next h => exact .inr ⟨n, ks, by simp, rfl, h⟩
    · rcases lvlT_cases U t L with h | ⟨n', ks', h1, h2, h3⟩
      · exact .inl h
      · exact .inr ⟨n', ks', by simp [h1], h2, h3⟩

theorem lvlT_le (U : Unicode) (t : Token) : ∀ L : List (Nat × List Kw),
    List.Pairwise (fun a b => a.1 ≤ b.1) L → ∀ n ks, (n, ks) ∈ L → t.inKws U ks = true → lvlT U t L ≤ n
  | [], _, _, _, h, _ => by simp at h
  | (n', ks') :: L, hp, n, ks, h, ht => by
    rw [List.pairwise_cons] at hp
    simp only [lvlT]
    rcases List.mem_cons.1 h with h | h
    · cases h; rw [if_pos ht]; exact Nat.le_refl _
    · split
      · exact hp.1 _ h
      · exact lvlT_le U t L hp.2 n ks h ht

theorem mem_levelKws {p : Nat → Bool} {k : Kw} : ∀ {L : List (Nat × List Kw)},
    k ∈ levelKws p L ↔ ∃ n ks, (n, ks) ∈ L ∧ p n = true ∧ k ∈ ks
  | [] => by simp [levelKws]
  | (n, ks) :: L => by
    have ih := @mem_levelKws p k L
    simp only [levelKws]
    cases hp : p n with
    | true =>
      simp only [cond_true, List.mem_append, ih, List.mem_cons]
      constructor
      · rintro (h | ⟨n', ks', h1, h2, h3⟩)
        · exact ⟨n, ks, .inl rfl, hp, h⟩
        · exact ⟨n', ks', .inr h1, h2, h3⟩
      · rintro ⟨n', ks', h1 | h1, h2, h3⟩
        · cases h1; exact .inl h3
        · exact .inr ⟨n', ks', h1, h2, h3⟩
    | false =>
      simp only [cond_false, ih, List.mem_cons]
      constructor
      · rintro ⟨n', ks', h1, h2, h3⟩; exact ⟨n', ks', .inr h1, h2, h3⟩
      · rintro ⟨n', ks', h1 | h1, h2, h3⟩
        · cases h1; rw [hp] at h2; simp at h2
        · exact ⟨n', ks', h1, h2, h3⟩

theorem inKws_mono {U : Unicode} {t : Token} {ks ks' : List Kw} (h : t.inKws U ks = true)
    (hs : ∀ k ∈ ks, k ∈ ks') : t.inKws U ks' = true := by
  unfold Token.inKws at *
  simp only [List.any_eq_true] at *
  obtain ⟨k, h1, h2⟩ := h
  exact ⟨k, hs k h1, h2⟩

include hU in
theorem below_true {t : Token} {n : Nat} (h : precTable U t < n) :
    (belowT n).testBit (gcls t.literal) = true := by
  unfold belowT
  cases hn : Nat.ble n usizeMax with
  | false => exact testBit_ALL (gcls_lt _)
  | true =>
    have hn := Nat.le_of_ble_eq_true hn
    rw [precTable_eq] at h
    rcases lvlT_cases U t levels with h' | ⟨l, ks, h1, h2, h3⟩
    · omega
    · refine inKws_true hU (inKws_mono h3 fun k hk => mem_levelKws.2 ⟨l, ks, h1, ?_, hk⟩)
      rw [h2] at h
      exact Nat.ble_eq_true_of_le h

include hU in
theorem below_false {t : Token} {n : Nat} (h : ¬ precTable U t < n) :
    (belowF n).testBit (gcls t.literal) = true := by
  refine inKws_false hU ?_
  rw [← Bool.not_eq_true]
  intro h'
  apply h
  unfold Token.inKws at h'
  simp only [List.any_eq_true] at h'
  obtain ⟨k, hk, hk'⟩ := h'
  obtain ⟨l, ks, h1, h2, h3⟩ := mem_levelKws.1 hk
  have h4 := lvlT_le U t levels (by decide) l ks h1 (by
    unfold Token.inKws
    simp only [List.any_eq_true]
    exact ⟨k, h3, hk'⟩)
  rw [precTable_eq]
  have h2 : l < n := Nat.le_of_ble_eq_true h2
  omega

include hG hU ok in
theorem precLevels_sound {st : St} {off : Nat} {t : Token} (ht : getToken toks st.ps off = .ok t) :
    ∀ {L : List (Nat × List Kw)} {s : GS} {l : List (Nat × GS)}, Sim G U toks r s st →
    precAt.precLevels G off s L = .ok l → ∃ s', (lvlT U t L, s') ∈ l ∧ Sim G U toks r s' st
  | [], s, l, h, hl => by
    simp only [precAt.precLevels, Except.ok.injEq] at hl
    subst hl
    exact ⟨s, by simp [lvlT], h⟩
  | (n, ks) :: L, s, l, h, hl => by
    simp only [precAt.precLevels] at hl
    split at hl
    · simp at hl
    · next q hq =>
      obtain ⟨t', _, h2, s', h3, h4⟩ := ask_good hG ok h hq (f := fun t => t.inKws U ks)
        (fun t => inKws_true hU) (fun t => inKws_false hU)
      rw [ht] at h2
      cases h2
      obtain ⟨cs, h5, h6⟩ := collect_mem hl _ h3
      simp only [lvlT]
      cases hb : t.inKws U ks with
      | true =>
        rw [hb] at h5
        simp only [Except.ok.injEq] at h5
        subst h5
        exact ⟨s', h6 _ (by simp), h4⟩
      | false =>
        rw [hb] at h5
        obtain ⟨s'', h7, h8⟩ := precLevels_sound ht h4 h5
        exact ⟨s'', h6 _ (by simpa using h7), h8⟩

include hG hU ok in
theorem precAt_sound {st : St} {off : Nat} {s : GS} {l : List (Nat × GS)} (h : Sim G U toks r s st)
    (hl : precAt G s off = .ok l) :
    ∃ p s', getPrecedence U toks st.ps off = .ok p ∧ (p, s') ∈ l ∧ Sim G U toks r s' st := by
  unfold precAt at hl
  split at hl
  · simp at hl
  · next q hq =>
    obtain ⟨t, _, h2, s', h3, h4⟩ := ask_good hG ok h hq (f := fun t => t.inKws U [.NOT])
      (fun t => inKws_true hU) (fun t => inKws_false hU)
    obtain ⟨cs, h5, h6⟩ := collect_mem hl _ h3
    unfold getPrecedence
    rw [h2]
    simp only
    cases hb : t.inKws U [.NOT] with
    | false =>
      rw [hb] at h5
      simp only [Bool.false_eq_true, if_false] at h5 ⊢
      obtain ⟨s'', h7, h8⟩ := precLevels_sound hG hU ok h2 h4 h5
      exact ⟨_, s'', rfl, h6 _ h7, h8⟩
    | true =>
      rw [hb] at h5
      simp only [if_true] at h5 ⊢
      split at h5
      · simp at h5
      · next q2 hq2 =>
        obtain ⟨t1, _, g2, s1, g3, g4⟩ := ask_good hG ok h4 hq2 (f := fun t => t.inKws U [.IN, .LIKE, .BETWEEN])
          (fun t => inKws_true hU) (fun t => inKws_false hU)
        obtain ⟨cs2, g5, g6⟩ := collect_mem h5 _ g3
        rw [g2]
        simp only
        cases hb1 : t1.inKws U [.IN, .LIKE, .BETWEEN] with
        | true =>
          rw [hb1] at g5
          simp only [Except.ok.injEq] at g5
          subst g5
          exact ⟨_, s1, rfl, h6 _ (g6 _ (by simp)), g4⟩
        | false =>
          rw [hb1] at g5
          simp only [Bool.false_eq_true, if_false] at g5 ⊢
          split at g5
          · simp at g5
          · next q3 hq3 =>
            obtain ⟨t2, _, k2, s2, k3, k4⟩ := ask_good hG ok g4 hq3 (f := fun t => t.inKws U [.ENFORCED])
              (fun t => inKws_true hU) (fun t => inKws_false hU)
            rw [g2] at k2
            cases k2
            obtain ⟨cs3, k5, k6⟩ := collect_mem g5 _ k3
            cases hb2 : t1.inKws U [.ENFORCED] with
            | true =>
              rw [hb2] at k5
              simp only [Except.ok.injEq] at k5
              subst k5
              exact ⟨_, s2, rfl, h6 _ (g6 _ (k6 _ (by simp))), k4⟩
            | false => rw [hb2] at k5; simp at k5

include hG hU ok in
theorem precBelow_sound {st : St} {n : Nat} {s : GS} {l : List (Bool × GS)} (h : Sim G U toks r s st)
    (hl : precBelow G s n = .ok l) :
    ∃ p s', getPrecedence U toks st.ps 1 = .ok p ∧ (decide (p < n), s') ∈ l ∧ Sim G U toks r s' st := by
  have hblt : ∀ a : Nat, Nat.blt a n = decide (a < n) := fun a => by
    rw [Bool.eq_iff_iff, Nat.blt_eq]; simp
  unfold precBelow at hl
  split at hl
  · simp at hl
  · next q hq =>
    obtain ⟨t, _, h2, s', h3, h4⟩ := ask_good hG ok h hq (f := fun t => t.inKws U [.NOT])
      (fun t => inKws_true hU) (fun t => inKws_false hU)
    obtain ⟨cs, h5, h6⟩ := collect_mem hl _ h3
    unfold getPrecedence
    rw [h2]
    simp only
    cases hb : t.inKws U [.NOT] with
    | false =>
      rw [hb] at h5
      simp only [Bool.false_eq_true, if_false] at h5 ⊢
      obtain ⟨t', _, g2, s'', h7, h8⟩ := ask_good hG ok h4 h5 (f := fun t => decide (precTable U t < n))
        (fun t ht => below_true hU (by simpa using ht)) (fun t ht => below_false hU (by simpa using ht))
      rw [h2] at g2
      cases g2
      exact ⟨_, s'', rfl, h6 _ h7, h8⟩
    | true =>
      rw [hb] at h5
      simp only [if_true] at h5 ⊢
      split at h5
      · simp at h5
      · next q2 hq2 =>
        obtain ⟨t1, _, g2, s1, g3, g4⟩ := ask_good hG ok h4 hq2 (f := fun t => t.inKws U [.IN, .LIKE, .BETWEEN])
          (fun t => inKws_true hU) (fun t => inKws_false hU)
        obtain ⟨cs2, g5, g6⟩ := collect_mem h5 _ g3
        rw [show 1 + 1 = 2 from rfl, g2]
        simp only
        cases hb1 : t1.inKws U [.IN, .LIKE, .BETWEEN] with
        | true =>
          rw [hb1] at g5
          simp only [Except.ok.injEq] at g5
          subst g5
          refine ⟨_, s1, rfl, h6 _ (g6 _ ?_), g4⟩
          rw [← hblt]; exact List.mem_singleton.2 rfl
        | false =>
          rw [hb1] at g5
          simp only [Bool.false_eq_true, if_false] at g5 ⊢
          split at g5
          · simp at g5
          · next q3 hq3 =>
            obtain ⟨t2, _, k2, s2, k3, k4⟩ := ask_good hG ok g4 hq3 (f := fun t => t.inKws U [.ENFORCED])
              (fun t => inKws_true hU) (fun t => inKws_false hU)
            rw [g2] at k2
            cases k2
            obtain ⟨cs3, k5, k6⟩ := collect_mem g5 _ k3
            cases hb2 : t1.inKws U [.ENFORCED] with
            | true =>
              rw [hb2] at k5
              simp only [Except.ok.injEq] at k5
              subst k5
              refine ⟨_, s2, rfl, h6 _ (g6 _ (k6 _ ?_)), k4⟩
              rw [← hblt]; exact List.mem_singleton.2 rfl
            | false => rw [hb2] at k5; simp at k5

include hG hU ok in
theorem precUpTo_sound {st : St} {n n' : Nat} {s : GS} {l : List (Bool × GS)} (h : Sim G U toks r s st)
    (hn : n' ≤ n) (hl : precUpTo G s n = .ok l) :
    ∃ p s', getPrecedence U toks st.ps 1 = .ok p ∧ (decide (p < n'), s') ∈ l ∧ Sim G U toks r s' st := by
  unfold precUpTo at hl
  split at hl
  · simp at hl
  · next q hq =>
    obtain ⟨t, _, h2, s', h3, h4⟩ := ask_good hG ok h hq (f := fun t => t.inKws U [.NOT])
      (fun t => inKws_true hU) (fun t => inKws_false hU)
    obtain ⟨cs, h5, h6⟩ := collect_mem hl _ h3
    unfold getPrecedence
    rw [h2]
    simp only
    cases hb : t.inKws U [.NOT] with
    | false =>
      rw [hb] at h5
      simp only [Bool.false_eq_true, if_false] at h5 ⊢
      obtain ⟨t', _, g2, s'', h7, h8⟩ := ask_good hG ok h4 h5 (f := fun t => decide (precTable U t < n'))
        (fun t ht => below_true hU (by have : precTable U t < n' := by simpa using ht
                                       omega)) (fun t ht => testBit_ALL (gcls_lt _))
      rw [h2] at g2
      cases g2
      exact ⟨_, s'', rfl, h6 _ h7, h8⟩
    | true =>
      rw [hb] at h5
      simp only [if_true] at h5 ⊢
      split at h5
      · simp at h5
      · next q2 hq2 =>
        obtain ⟨t1, _, g2, s1, g3, g4⟩ := ask_good hG ok h4 hq2 (f := fun t => t.inKws U [.IN, .LIKE, .BETWEEN])
          (fun t => inKws_true hU) (fun t => inKws_false hU)
        obtain ⟨cs2, g5, g6⟩ := collect_mem h5 _ g3
        rw [show 1 + 1 = 2 from rfl, g2]
        simp only
        cases hb1 : t1.inKws U [.IN, .LIKE, .BETWEEN] with
        | true =>
          rw [hb1] at g5
          simp only [both, Except.ok.injEq] at g5
          subst g5
          refine ⟨_, s1, rfl, h6 _ (g6 _ ?_), g4⟩
          cases decide (109 < n') <;> simp
        | false => rw [hb1] at g5; simp at g5

theorem onAll_sound {f : GS → R (List (Bool × GS))} {pick : Bool} : ∀ {l q : List (Bool × GS)} {b : Bool} {s : GS},
    onAll f pick l = .ok q → (b, s) ∈ l →
    (b = pick → ∃ q', f s = .ok q' ∧ ∀ x ∈ q', x ∈ q) ∧ (b ≠ pick → (b, s) ∈ q)
  | [], _, _, _, _, h => by simp at h
  | (b', s') :: l, q, b, s, h, hm => by
    simp only [onAll] at h
    split at h
    · simp at h
    · next r hr =>
      have key : ∀ q' : List (Bool × GS), (∀ x ∈ r, x ∈ q') → (b, s) ∈ l →
          (b = pick → ∃ p : List (Bool × GS), f s = .ok p ∧ ∀ x ∈ p, x ∈ q') ∧ (b ≠ pick → (b, s) ∈ q') := by
        intro q' hq' hm'
        have ih := onAll_sound hr hm'
        exact ⟨fun hb => by obtain ⟨p, h1, h2⟩ := ih.1 hb; exact ⟨p, h1, fun x hx => hq' x (h2 x hx)⟩,
          fun hb => hq' _ (ih.2 hb)⟩
      by_cases hb' : b' = pick
      · have hf : ∃ p, f s' = .ok p ∧ q = p ++ r := by
          subst hb'
          cases b' <;> simp only at h <;> split at h
          all_goals first
            | (simp at h; done)
            | (next p hp => cases h; exact ⟨p, hp, rfl⟩)
        obtain ⟨p, hp, rfl⟩ := hf
        rcases List.mem_cons.1 hm with hm | hm
        · cases hm
          exact ⟨fun _ => ⟨p, hp, fun x hx => by simp [hx]⟩, fun h => (h hb').elim⟩
        · exact key _ (fun x hx => by simp [hx]) hm
      · have hq : q = (b', s') :: r := by
          cases b' <;> cases pick <;> simp at hb' h <;> exact h.symm
        subst hq
        rcases List.mem_cons.1 hm with hm | hm
        · cases hm
          exact ⟨fun h => (hb' h).elim, fun _ => by simp⟩
        · exact key _ (fun x hx => by simp [hx]) hm

include hG ok in
theorem first_cls {s : GS} {st : St} (h : Sim G U toks r s st) (hs : s.current G = true) :
    ∃ t, (toks[st.ps.pos + 0]? = some t ∧ t.isComment = false) ∧
      (firstOf G s.X s.m).testBit (gcls t.literal) = true := by
  obtain ⟨u, hv, hu⟩ := h.str
  obtain ⟨c, w, h1, h2⟩ := current_sound hG hu h.rest (by
    unfold GS.current at hs
    cases hn : noRest s.m <;> cases hX : nonempty G s.X <;> simp_all)
  obtain ⟨t, ht, hnc, htc⟩ := view_get ok (pos := st.ps.pos) (k := 0) (c := c) (by rw [hv, h1]; rfl)
  exact ⟨t, ⟨ht, hnc⟩, by rw [htc]; exact h2⟩

theorem sub_cmpl {f m : Mask} {c : Nat} (hc : c < 308) (h : Nat.beq (f &&& cmpl m) 0 = true)
    (h1 : f.testBit c = true) : m.testBit c = true := by
  by_contra h2
  exact and_beq_zero h h1 (by rw [testBit_cmpl hc]; simpa using h2)

/-- The answers describe the outcome of a condition. -/
def CondOk (G : Tables) (U : Unicode) (toks : List Token) (r : List Nat) (st : St) (l : List (Bool × GS))
    (b : Bool) : Prop := ∃ s', (b, s') ∈ l ∧ Sim G U toks r s' st

theorem both_ok {s : GS} {st : St} (h : Sim G U toks r s st) {l : List (Bool × GS)} (hl : both s = .ok l)
    (b : Bool) : CondOk G U toks r st l b := by
  cases hl
  exact ⟨s, by cases b <;> simp, h⟩

include hG hU ok in
/-- Conditions. -/
theorem evalC_sound {C : Ctx} (hCU : C.U = U) (hCt : C.toks = toks) {st : St} : ∀ {c : Cond} {s : GS} {l : List (Bool × GS)},
    Sim G U toks r s st → evalC G c s = .ok l → Good (CondOk G U toks r st l) (Interp.evalCond C st c) := by
  have off : ∀ {o : Off} {s : GS} {k : Nat} {t : Token}, Sim G U toks r s st → evalO s o = .ok k →
      getToken toks st.ps k = .ok t → Interp.offTok C st o = .ok t := by
    intro o s k t h ho ht
    unfold Interp.offTok
    rw [evalO_sound h ho, hCt]
    exact ht
  intro c
  induction c with
  | up o ks =>
    intro s l h hl
    simp only [evalC] at hl
    split at hl
    · simp at hl
    · next k hk =>
      obtain ⟨t, h1, h2, h3⟩ := ask_good hG ok h hl (f := fun t => t.inKws U ks)
        (fun t => inKws_true hU) (fun t => inKws_false hU)
      simp only [Interp.evalCond, off h hk h2, hCU]
      exact h3
  | raw o ks =>
    intro s l h hl
    simp only [evalC] at hl
    split at hl
    · simp at hl
    · next k hk =>
      obtain ⟨t, h1, h2, h3⟩ := ask_good hG ok h hl (f := fun t => ks.any fun k => t.literal == k.lit)
        (fun t => raw_true') (fun t => raw_false')
      simp only [Interp.evalCond, off h hk h2]
      exact h3
  | upVar o x =>
    intro s l h hl
    simp only [evalC] at hl
    split at hl
    · simp at hl
    · next k hk =>
      split at hl
      · next ks hks =>
        obtain ⟨t, h1, h2, h3⟩ := ask_good hG ok h hl (f := fun t => t.inKws U ks)
          (fun t => inKws_true hU) (fun t => inKws_false hU)
        have := h.env x _ hks
        simp only [GVRel] at this
        simp only [Interp.evalCond, off h hk h2, hCU, this]
        exact h3
      · simp at hl
  | isIdent o =>
    intro s l h hl
    simp only [evalC] at hl
    split at hl
    · simp at hl
    · next k hk =>
      obtain ⟨t, h1, h2, h3⟩ := ask_good hG ok h hl (f := fun t => t.isIdentifier U)
        (fun t => isIdent_true hU) (fun t => isIdent_false hU)
      simp only [Interp.evalCond, off h hk h2, hCU]
      exact h3
  | isStr o =>
    intro s l h hl
    simp only [evalC] at hl
    split at hl
    · simp at hl
    · next k hk =>
      obtain ⟨t, h1, h2, h3⟩ := ask_good hG ok h hl (f := fun t => t.isString)
        (fun t => isStr_true) (fun t => isStr_false)
      simp only [Interp.evalCond, off h hk h2]
      exact h3
  | isNum o =>
    intro s l h hl
    simp only [evalC] at hl
    split at hl
    · simp at hl
    · next k hk =>
      obtain ⟨t, h1, h2, h3⟩ := ask_good hG ok h hl (f := fun t => t.isNumeric)
        (fun t => isNum_true) (fun t => isNum_false)
      simp only [Interp.evalCond, off h hk h2]
      exact h3
  | eof o =>
    intro s l h hl
    simp only [evalC] at hl
    split at hl
    · simp at hl
    · next k hk =>
      split at hl
      · simp at hl
      obtain ⟨t, h1, h2, h3⟩ := ask_good hG ok h hl (f := fun t => decide (gcls t.literal = EOFC))
        (fun t ht => by rw [of_decide_eq_true ht]; decide)
        (fun t ht => by
          rw [testBit_cmpl (gcls_lt _), testBit_bit]
          have := of_decide_eq_false ht
          simp [Ne.symm this])
      simp only [Interp.evalCond, evalO_sound h hk, hCt]
      show Good _ (Out.ok _)
      rw [isEof_at ok h1.1 h1.2]
      exact h3
  | hasTok o =>
    intro s l h hl
    simp only [evalC] at hl
    split at hl
    · simp at hl
    · next k hk =>
      split at hl
      · simp at hl
      · next q hq =>
        cases hl
        obtain ⟨t, h1, h2, _⟩ := ask_sound hG ok h hq
        simp only [Interp.evalCond, evalO_sound h hk, hCt]
        show Good _ (match getToken toks st.ps k with
          | .ok _ => Out.ok true
          | .err _ => .ok false
          | .panic p => .panic p
          | .timeout => .timeout)
        rw [h2]
        exact ⟨s, by simp, h⟩
  | bvar x =>
    intro s l h hl
    simp only [evalC] at hl
    simp only [Interp.evalCond]
    split at hl
    · next b hb =>
      cases hl
      have := h.env x _ hb
      simp only [GVRel] at this
      rw [this]
      exact ⟨s, by simp, h⟩
    · split
      · exact both_ok h hl _
      · exact stuck_good
  | const b =>
    intro s l h hl
    simp only [evalC, Except.ok.injEq] at hl
    subst hl
    exact ⟨s, by simp, h⟩
  | precLt x =>
    intro s l h hl
    simp only [evalC] at hl
    simp only [Interp.evalCond, hCt, hCU]
    split at hl
    · next n hn =>
      obtain ⟨p, s', h1, h2, h3⟩ := precBelow_sound hG hU ok h hl
      have := h.env x _ hn
      simp only [GVRel] at this
      rw [h1, this]
      exact ⟨s', h2, h3⟩
    · next n hn =>
      have := h.env x _ hn
      simp only [GVRel] at this
      obtain ⟨k, hk, hv⟩ := this
      obtain ⟨p, s', h1, h2, h3⟩ := precUpTo_sound hG hU ok h hk hl
      rw [h1, hv]
      exact ⟨s', h2, h3⟩
    · simp at hl
  | lenPos x =>
    intro s l h hl
    simp only [evalC] at hl
    simp only [Interp.evalCond]
    split
    · exact both_ok h hl _
    · exact stuck_good
  | lenOne x =>
    intro s l h hl
    simp only [evalC] at hl
    simp only [Interp.evalCond]
    split
    · exact both_ok h hl _
    · exact stuck_good
  | strIs x k =>
    intro s l h hl
    simp only [evalC] at hl
    simp only [Interp.evalCond]
    split at hl
    · next m hm =>
      have hx := h.env x _ hm
      simp only [GVRel] at hx
      obtain ⟨w, hw, hwm⟩ := hx
      rw [hw]
      have hb : (U.upper w == k.lit) = (litTok w).inKws U [k] := by
        unfold Token.inKws Token.upper litTok; simp
      have ht : (U.upper w == k.lit) = true → (upT [k]).testBit (gcls w) = true := fun h => by
        rw [hb] at h; exact inKws_true hU h
      have hf : (U.upper w == k.lit) = false → (upF [k]).testBit (gcls w) = true := fun h => by
        rw [hb] at h; exact inKws_false hU h
      show CondOk _ _ _ _ _ _ _
      cases h1 : Nat.beq (m &&& upF [k]) 0 with
      | true =>
        rw [h1] at hl
        cases hl
        cases hv : (U.upper w == k.lit) with
        | true => exact ⟨s, by simp, h⟩
        | false => exact (and_beq_zero h1 hwm (hf hv)).elim
      | false =>
        rw [h1] at hl
        cases h2 : Nat.beq (m &&& upT [k]) 0 with
        | true =>
          rw [h2] at hl
          cases hl
          cases hv : (U.upper w == k.lit) with
          | false => exact ⟨s, by simp, h⟩
          | true => exact (and_beq_zero h2 hwm (ht hv)).elim
        | false =>
          rw [h2] at hl
          cases hl
          cases hv : (U.upper w == k.lit) with
          | true => exact ⟨_, by simp, h.refine x (.str (m &&& upT [k])) ⟨w, hw, by simp [hwm, ht hv]⟩⟩
          | false => exact ⟨_, by simp, h.refine x (.str (m &&& upF [k])) ⟨w, hw, by simp [hwm, hf hv]⟩⟩
    · split
      · exact both_ok h hl _
      · exact stuck_good
  | typeIs x nt =>
    intro s l h hl
    simp only [evalC] at hl
    simp only [Interp.evalCond]
    split
    · exact both_ok h hl _
    · exact stuck_good
  | leftmostIs x nt =>
    intro s l h hl
    simp only [evalC] at hl
    simp only [Interp.evalCond]
    split
    · exact both_ok h hl _
    · exact stuck_good
  | hasAnyKey x ks =>
    intro s l h hl
    simp only [evalC] at hl
    simp only [Interp.evalCond]
    split
    · exact both_ok h hl _
    · exact stuck_good
  | firstCharIs c =>
    intro s l h hl
    simp only [evalC] at hl
    cases hcur : s.current G with
    | false => rw [hcur] at hl; simp at hl
    | true =>
    rw [hcur] at hl
    simp only [Bool.not_true, Bool.false_or] at hl
    obtain ⟨t, ⟨ht, hnc⟩, htc⟩ := first_cls hG ok h hcur
    have hg := getToken_at ok ht hnc
    simp only [Interp.evalCond, hCt, hg]
    show Good _ (match t.literal.head? with
      | some d => Out.ok (d == c)
      | none => .panic .emptyLiteral)
    cases he : (firstOf G s.X s.m).has EOFC with
    | true => rw [he] at hl; simp at hl
    | false =>
      rw [he] at hl
      simp only [cond_false] at hl
      have hne : t.literal ≠ [] := by
        intro h0
        rw [gcls_eof.2 h0] at htc
        unfold Mask.has at he
        rw [htc] at he
        simp at he
      cases hlit : t.literal with
      | nil => exact (hne hlit).elim
      | cons d w =>
        simp only [List.head?_cons]
        show CondOk _ _ _ _ _ _ _
        cases hq : (Nat.beq c.toNat 96 && Nat.beq (firstOf G s.X s.m &&& cmpl (wordM ||| bit QID)) 0) with
        | false => rw [hq] at hl; exact both_ok h hl _
        | true =>
          rw [hq] at hl
          simp only [cond_true] at hl
          rw [Bool.and_eq_true] at hq
          have hc : c = '`' := by
            have := Nat.eq_of_beq_eq_true hq.1
            rw [← Char.ofNat_toNat c, this]
          subst hc
          obtain ⟨t', h1, h2, h3⟩ := ask_sound hG ok h hl
          rw [ht] at h1
          cases h1.1
          apply h3
          · intro hd
            have hd : d = '`' := by simpa using hd
            subst hd
            have := sub_cmpl (gcls_lt _) hq.2 htc
            rw [Nat.testBit_or, Bool.or_eq_true] at this
            rcases this with h4 | h4
            · obtain ⟨c, r', hcr, hc⟩ := word_head (word_of_cls h4)
              rw [hlit] at hcr
              rw [← (List.cons.inj hcr).1] at hc
              exact absurd hc (by decide)
            · exact h4
          · intro hd
            rw [testBit_cmpl (gcls_lt _), testBit_bit]
            by_cases hQ : QID = gcls t.literal
            · obtain ⟨r', hr'⟩ := quotedBy_head (quoted_of_cls hQ.symm)
              rw [hlit] at hr'
              rw [(List.cons.inj hr').1] at hd
              exact absurd hd (by decide)
            · simp [hQ]
  | lastCharIs c =>
    intro s l h hl
    simp only [evalC] at hl
    cases hcur : s.current G with
    | false => rw [hcur] at hl; simp at hl
    | true =>
    rw [hcur] at hl
    simp only [Bool.not_true, Bool.false_or] at hl
    obtain ⟨t, ⟨ht, hnc⟩, htc⟩ := first_cls hG ok h hcur
    have hg := getToken_at ok ht hnc
    simp only [Interp.evalCond, hCt, hg]
    show Good _ (match t.literal.getLast? with
      | some d => Out.ok (d == c)
      | none => .panic .emptyLiteral)
    cases he : (firstOf G s.X s.m).has EOFC with
    | true => rw [he] at hl; simp at hl
    | false =>
      rw [he] at hl
      simp only [cond_false] at hl
      have hne : t.literal ≠ [] := by
        intro h0
        rw [gcls_eof.2 h0] at htc
        unfold Mask.has at he
        rw [htc] at he
        simp at he
      cases hlit : t.literal.getLast? with
      | none => rw [List.getLast?_eq_none_iff] at hlit; exact (hne hlit).elim
      | some d =>
        show CondOk _ _ _ _ _ _ _
        cases hq : (!Token.identRest c && Nat.beq (firstOf G s.X s.m &&& cmpl wordM) 0) with
        | false => rw [hq] at hl; exact both_ok h hl _
        | true =>
          rw [hq] at hl
          cases hl
          rw [Bool.and_eq_true] at hq
          have hw := word_of_cls (sub_cmpl (gcls_lt _) hq.2 htc)
          have hd : Token.identRest d = true := by
            have hm := List.mem_of_getLast? hlit
            obtain ⟨c', w, hcw, hc'⟩ := word_head hw
            rw [hcw] at hm hw
            simp only [isWordLit, Bool.and_eq_true, List.all_eq_true] at hw
            rcases List.mem_cons.1 hm with rfl | hm
            · unfold Token.identRest; rw [hc']; rfl
            · exact hw.2 d hm
          have : (d == c) = false := by
            rw [beq_eq_false_iff_ne]
            rintro rfl
            rw [hd] at hq
            simp at hq
          rw [this]
          exact ⟨s, by simp, h⟩
  | adjacent =>
    intro s l h hl
    simp only [evalC] at hl
    cases hcur : s.current G with
    | false => rw [hcur] at hl; simp at hl
    | true =>
    rw [hcur] at hl
    simp only [Bool.true_and] at hl
    obtain ⟨t, ⟨ht, hnc⟩, htc⟩ := first_cls hG ok h hcur
    have hg := getToken_at ok ht hnc
    cases hq : Nat.beq (firstOf G s.X s.m &&& cmpl wordM) 0 with
    | false => rw [hq] at hl; simp at hl
    | true =>
      rw [hq] at hl
      simp only [cond_true] at hl
      split at hl
      · simp at hl
      · next q hq' =>
        obtain ⟨t1, h1, h2, s', h3, h4⟩ := ask_good hG ok h hq' (f := fun t => touchM.testBit (gcls t.literal))
          (fun t h => h) (fun t h => by rw [testBit_cmpl (gcls_lt _), h]; rfl)
        obtain ⟨cs, h5, h6⟩ := collect_mem hl _ h3
        simp only [Interp.evalCond, hCt, hg]
        show Good _ (do let b ← getToken toks st.ps 1; Out.ok (Interp.adjacentToks t b))
        rw [h2]
        show CondOk _ _ _ _ _ _ _
        cases hb : touchM.testBit (gcls t1.literal) with
        | true =>
          rw [hb] at h5
          obtain ⟨s'', h7, h8⟩ := both_ok h4 h5 (Interp.adjacentToks t t1)
          exact ⟨s'', h6 _ h7, h8⟩
        | false =>
          rw [hb] at h5
          cases h5
          rw [ok.apart _ _ _ ht h1.1 (word_of_cls (sub_cmpl (gcls_lt _) hq htc)) hb]
          exact ⟨s', h6 _ (by simp), h4⟩
  | and a b iha ihb =>
    intro s l h hl
    simp only [evalC] at hl
    split at hl
    · simp at hl
    · next q hq =>
      simp only [Interp.evalCond]
      refine (iha h hq).bind fun x hx => ?_
      obtain ⟨s', h1, h2⟩ := hx
      have h3 := onAll_sound hl h1
      cases x with
      | true =>
        obtain ⟨q', h4, h5⟩ := h3.1 rfl
        exact (ihb h2 h4).imp fun y ⟨s'', h6, h7⟩ => ⟨s'', h5 _ h6, h7⟩
      | false => exact ⟨s', h3.2 (by simp), h2⟩
  | or a b iha ihb =>
    intro s l h hl
    simp only [evalC] at hl
    split at hl
    · simp at hl
    · next q hq =>
      simp only [Interp.evalCond]
      refine (iha h hq).bind fun x hx => ?_
      obtain ⟨s', h1, h2⟩ := hx
      have h3 := onAll_sound hl h1
      cases x with
      | false =>
        obtain ⟨q', h4, h5⟩ := h3.1 rfl
        exact (ihb h2 h4).imp fun y ⟨s'', h6, h7⟩ => ⟨s'', h5 _ h6, h7⟩
      | true => exact ⟨s', h3.2 (by simp), h2⟩
  | not a iha =>
    intro s l h hl
    simp only [evalC] at hl
    split at hl
    · simp at hl
    · next q hq =>
      cases hl
      simp only [Interp.evalCond]
      refine (iha h hq).bind fun x hx => ?_
      obtain ⟨s', h1, h2⟩ := hx
      exact ⟨s', List.mem_map.2 ⟨_, h1, rfl⟩, h2⟩

end

end Verif.GI
