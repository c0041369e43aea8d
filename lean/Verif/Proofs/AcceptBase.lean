import Verif.Analysis.Accept
import Verif.Proofs.Masks
/-! Soundness of the acceptance analysis, part 1: streams of grammar symbols and the classes of tokens they
describe. -/
namespace Verif.GI
open AI Spec

/-- The first element, if any, is in the mask. -/
def HeadIn (a : Mask) : List Nat → Prop
  | [] => True
  | c :: _ => a.testBit c = true

/-- The classes of the tokens of a phrase described by a stream. -/
inductive M (G : Tables) : List GSym → List Nat → Prop
  | nil : M G [] []
  | T {a : Mask} {c : Nat} {X : List GSym} {u : List Nat} (h : a.testBit c = true) (hc : c < 308)
      (hX : M G X u) : M G (.T a :: X) (c :: u)
  | N {n : NT} {a : Mask} {r X : List GSym} {v u : List Nat} (h : r ∈ G.prods n) (hr : M G r v)
      (ha : HeadIn a v) (hX : M G X u) : M G (.N n a :: X) (v ++ u)

/-- The tables are right. -/
def TOk (G : Tables) : Prop := ∀ n r, r ∈ G.prods n → prodOk G n r = true

theorem M_nil {G : Tables} {u : List Nat} (h : M G [] u) : u = [] := by cases h; rfl

theorem M_T {G : Tables} {a : Mask} {X : List GSym} {u : List Nat} (h : M G (.T a :: X) u) :
    ∃ c w, u = c :: w ∧ a.testBit c = true ∧ c < 308 ∧ M G X w := by
  cases h with
  | T h hc hX => exact ⟨_, _, rfl, h, hc, hX⟩

theorem M_N {G : Tables} {n : NT} {a : Mask} {X : List GSym} {u : List Nat} (h : M G (.N n a :: X) u) :
    ∃ r v w, u = v ++ w ∧ r ∈ G.prods n ∧ M G r v ∧ HeadIn a v ∧ M G X w := by
  cases h with
  | N h hr ha hX => exact ⟨_, _, _, rfl, h, hr, ha, hX⟩

theorem M_append {G : Tables} {X Y : List GSym} {u v : List Nat} (h : M G X u) (h' : M G Y v) :
    M G (X ++ Y) (u ++ v) := by
  induction h with
  | nil => simpa using h'
  | T h hc _ ih => exact .T h hc ih
  | N h hr ha _ _ ih =>
    rw [List.append_assoc]
    exact .N h hr ha ih

theorem M_split {G : Tables} : ∀ {X Y : List GSym} {u : List Nat}, M G (X ++ Y) u →
    ∃ v w, u = v ++ w ∧ M G X v ∧ M G Y w
  | [], _, u, h => ⟨[], u, rfl, .nil, h⟩
  | .T a :: X, Y, u, h => by
    obtain ⟨c, w, rfl, ha, hc, hw⟩ := M_T h
    obtain ⟨v, w', rfl, h1, h2⟩ := M_split hw
    exact ⟨c :: v, w', rfl, .T ha hc h1, h2⟩
  | .N n a :: X, Y, u, h => by
    obtain ⟨r, v, w, rfl, hr, hv, ha, hw⟩ := M_N h
    obtain ⟨v', w', rfl, h1, h2⟩ := M_split hw
    exact ⟨v ++ v', w', by simp, .N hr hv ha h1, h2⟩

theorem M_lt {G : Tables} {X : List GSym} {u : List Nat} (h : M G X u) : ∀ c ∈ u, c < 308 := by
  induction h with
  | nil => simp
  | T _ hc _ ih => intro d hd; rcases List.mem_cons.1 hd with rfl | hd; exact hc; exact ih d hd
  | N _ _ _ _ ih1 ih2 => intro d hd; rcases List.mem_append.1 hd with hd | hd; exact ih1 d hd; exact ih2 d hd

theorem testBit_ALL {c : Nat} (h : c < 308) : ALL.testBit c = true := by
  unfold ALL
  rw [Nat.testBit_two_pow_sub_one]
  simpa using h

theorem testBit_cmpl {m : Mask} {c : Nat} (h : c < 308) : (cmpl m).testBit c = !m.testBit c := by
  unfold cmpl
  rw [Nat.testBit_xor, Nat.testBit_and, testBit_ALL h]
  simp

theorem HeadIn.and {a b : Mask} {u : List Nat} (h : HeadIn a u) (h' : HeadIn b u) : HeadIn (a &&& b) u := by
  cases u with
  | nil => trivial
  | cons c u => simp only [HeadIn, Nat.testBit_and] at *; simp [h, h']

theorem HeadIn.left {a b : Mask} {u : List Nat} (h : HeadIn a u) : HeadIn (a ||| b) u := by
  cases u with
  | nil => trivial
  | cons c u => simp only [HeadIn, Nat.testBit_or] at *; simp [h]

theorem HeadIn.right {a b : Mask} {u : List Nat} (h : HeadIn b u) : HeadIn (a ||| b) u := by
  cases u with
  | nil => trivial
  | cons c u => simp only [HeadIn, Nat.testBit_or] at *; simp [h]

theorem HeadIn.le {a b : Mask} {u : List Nat} (h : HeadIn a u) (h' : Mask.le a b = true) : HeadIn b u := by
  cases u with
  | nil => trivial
  | cons c u => exact Mask.le_has h' h

theorem HeadIn.all {u : List Nat} (h : ∀ c ∈ u, c < 308) : HeadIn ALL u := by
  cases u with
  | nil => trivial
  | cons c u => exact testBit_ALL (h c (by simp))

theorem HeadIn.zero {u : List Nat} (h : HeadIn 0 u) : u = [] := by
  cases u with
  | nil => rfl
  | cons c u => simp [HeadIn] at h

theorem HeadIn.beq_zero {m : Mask} {u : List Nat} (h : HeadIn m u) (h' : Nat.beq m 0 = true) : u = [] := by
  rw [Nat.eq_of_beq_eq_true h'] at h
  exact h.zero

theorem HeadIn.append {m : Mask} {u v : List Nat} (h : HeadIn m (u ++ v)) : HeadIn m u := by
  cases u with
  | nil => trivial
  | cons c u => exact h

/-- Empty phrases and first tokens. -/
theorem first_sound {G : Tables} (hG : TOk G) {X : List GSym} {u : List Nat} (h : M G X u) :
    (u = [] → nonempty G X = false) ∧
      ∀ m r, HeadIn m r → HeadIn (firstOf G X m) (u ++ r) := by
  induction h with
  | nil => exact ⟨fun _ => rfl, fun m r h => h⟩
  | T h hc _ ih => exact ⟨fun h => (by simp at h), fun m r _ => by simpa [firstOf, HeadIn] using h⟩
  | @N n a r X v u hp hr ha hX ih1 ih2 =>
    have hok := hG n r hp
    unfold prodOk at hok
    rw [Bool.and_eq_true, Bool.or_eq_true] at hok
    have h1 : v = [] → G.nullable n = true := by
      intro hv
      rcases hok.2 with h | h
      · rw [ih1.1 hv] at h; simp at h
      · exact h
    constructor
    · intro h
      rw [List.append_eq_nil_iff] at h
      simp [nonempty, h1 h.1, ih2.1 h.2]
    · intro m w hw
      simp only [firstOf]
      cases v with
      | nil =>
        rw [h1 rfl]
        exact (ih2.2 m w hw).right
      | cons c v =>
        have h3 := ih1.2 0 [] trivial
        rw [List.append_nil] at h3
        exact HeadIn.left (a := G.first n &&& a) (HeadIn.and (HeadIn.le h3 hok.1) ha)

theorem N_first {G : Tables} (hG : TOk G) {n : NT} {r : List GSym} {v : List Nat} (hp : r ∈ G.prods n)
    (hr : M G r v) : HeadIn (G.first n) v ∧ (v = [] → G.nullable n = true) := by
  have hok := hG n r hp
  unfold prodOk at hok
  rw [Bool.and_eq_true, Bool.or_eq_true] at hok
  have ih1 := first_sound hG hr
  constructor
  · have h3 := ih1.2 0 [] trivial
    rw [List.append_nil] at h3
    exact HeadIn.le h3 hok.1
  · intro hv
    rcases hok.2 with h | h
    · rw [ih1.1 hv] at h; simp at h
    · exact h

/-- What `restrict` drops does not occur. -/
theorem restrict_sound {G : Tables} (hG : TOk G) (m : Mask) : ∀ {X : List GSym} {u : List Nat}, M G X u →
    HeadIn m u → ∃ Y, restrict G m X = some Y ∧ M G Y u
  | [], u, h, _ => ⟨[], rfl, h⟩
  | .T a :: X, u, h, hm => by
    obtain ⟨c, w, rfl, ha, hc, hw⟩ := M_T h
    have hb : (a &&& m).testBit c = true := by
      have : m.testBit c = true := hm
      simp [ha, this]
    simp only [restrict]
    cases hz : Nat.beq (a &&& m) 0 with
    | true => rw [Nat.eq_of_beq_eq_true hz] at hb; simp at hb
    | false => exact ⟨_, rfl, .T hb hc hw⟩
  | .N n a :: X, u, h, hm => by
    obtain ⟨r, v, w, rfl, hp, hv, ha, hw⟩ := M_N h
    have hf := N_first hG hp hv
    have hv' : HeadIn (G.first n &&& a &&& m) v := (hf.1.and ha).and hm.append
    simp only [restrict]
    cases hz : Nat.beq (G.first n &&& a &&& m) 0 with
    | true =>
      have := hv'.beq_zero hz
      subst this
      rw [hf.2 rfl]
      exact restrict_sound hG m hw hm
    | false => exact ⟨_, rfl, .N hp hv (ha.and hm.append) hw⟩

theorem expand_sound {G : Tables} (hG : TOk G) {n : NT} {a : Mask} {X : List GSym} {u : List Nat}
    (h : M G (.N n a :: X) u) : ∃ r ∈ expand G n a, M G (r ++ X) u := by
  obtain ⟨r, v, w, rfl, hp, hv, ha, hw⟩ := M_N h
  obtain ⟨r', h1, h2⟩ := restrict_sound hG a hv ha
  exact ⟨r', List.mem_filterMap.2 ⟨r, hp, h1⟩, M_append h2 hw⟩

theorem collect_mem {α β : Type} {f : α → R (List β)} : ∀ {l : List α} {bs : List β}, collect f l = .ok bs →
    ∀ a ∈ l, ∃ cs, f a = .ok cs ∧ ∀ b ∈ cs, b ∈ bs
  | [], _, _, a, ha => by simp at ha
  | x :: l, bs, h, a, ha => by
    simp only [collect] at h
    split at h
    · simp at h
    · next cs hc =>
      split at h
      · simp at h
      · next ds hd =>
        cases h
        rcases List.mem_cons.1 ha with rfl | ha
        · exact ⟨cs, hc, fun b hb => List.mem_append.2 (.inl hb)⟩
        · obtain ⟨es, h1, h2⟩ := collect_mem hd a ha
          exact ⟨es, h1, fun b hb => List.mem_append.2 (.inr (h2 b hb))⟩

theorem heads_sound {G : Tables} (hG : TOk G) : ∀ {n : Nat} {X : List GSym} {hs : List (List GSym)}
    {u : List Nat}, heads G n X = .ok hs → M G X u →
    ∃ Y ∈ hs, M G Y u ∧ (Y = [] ∨ ∃ a Z, Y = .T a :: Z)
  | 0, _, _, _, h, _ => by simp [heads] at h
  | n + 1, [], _, _, h, hu => by
    simp only [heads, Except.ok.injEq] at h; subst h
    exact ⟨[], by simp, hu, .inl rfl⟩
  | n + 1, .T a :: X, _, _, h, hu => by
    simp only [heads, Except.ok.injEq] at h; subst h
    exact ⟨_, by simp, hu, .inr ⟨_, _, rfl⟩⟩
  | n + 1, .N j a :: X, hs, u, h, hu => by
    obtain ⟨r, hr, hu'⟩ := expand_sound hG hu
    obtain ⟨cs, h1, h2⟩ := collect_mem (by simpa [heads] using h) r hr
    obtain ⟨Y, hY, h3, h4⟩ := heads_sound hG h1 hu'
    exact ⟨Y, h2 Y hY, h3, h4⟩

theorem and_beq_zero {f m : Mask} {c : Nat} (h : Nat.beq (f &&& m) 0 = true) (h1 : f.testBit c = true)
    (h2 : m.testBit c = true) : False := by
  have := Nat.eq_of_beq_eq_true h
  have h3 : (f &&& m).testBit c = true := by simp [h1, h2]
  rw [this] at h3
  simp at h3

/-- What is known about the rest: nothing, or that it begins with a token in the mask. -/
def RestOk (m : Mask) (r : List Nat) : Prop := m = 0 ∨ (r ≠ [] ∧ HeadIn m r)

theorem noRest_iff {m : Mask} : noRest m = true ↔ m = 0 := by unfold noRest; rw [Nat.beq_eq]

theorem RestOk.head {m : Mask} {r : List Nat} (h : RestOk m r) (hm : noRest m = false) : r ≠ [] ∧ HeadIn m r := by
  rcases h with h | h
  · rw [noRest_iff.2 h] at hm; simp at hm
  · exact h

theorem RestOk.of_head {m : Mask} {c : Nat} {w : List Nat} (h : m.testBit c = true) : RestOk m (c :: w) :=
  .inr ⟨by simp, h⟩

/-- There is a current token, and its class is among the first tokens. -/
theorem current_sound {G : Tables} (hG : TOk G) {X : List GSym} {m : Mask} {u r : List Nat} (hu : M G X u)
    (hm : RestOk m r) (h : (noRest m && !nonempty G X) = false) :
    ∃ c w, u ++ r = c :: w ∧ (firstOf G X m).testBit c = true := by
  cases hn : noRest m with
  | false =>
    obtain ⟨h1, h2⟩ := hm.head hn
    have h3 := (first_sound hG hu).2 m r h2
    cases hur : u ++ r with
    | nil => rw [List.append_eq_nil_iff] at hur; exact (h1 hur.2).elim
    | cons c w => rw [hur] at h3; exact ⟨c, w, rfl, h3⟩
  | true =>
    rw [hn] at h
    have := noRest_iff.1 hn
    subst this
    have h3 := (first_sound hG hu).2 0 [] trivial
    cases u with
    | nil => rw [(first_sound hG hu).1 rfl] at h; simp at h
    | cons c u => exact ⟨c, u ++ r, rfl, h3⟩

theorem split0_current {G : Tables} {tm fm : Mask} : ∀ {n : Nat} {X : List GSym} {m : Mask}
    {l : List (Bool × List GSym × Mask)}, split0 G tm fm n X m = .ok l → (noRest m && !nonempty G X) = false
  | 0, X, m, l, h => by simp [split0] at h
  | n + 1, X, m, l, h => by
    cases h0 : (noRest m && !nonempty G X) with
    | false => rfl
    | true => simp [split0, h0] at h

theorem split0_sound {G : Tables} (hG : TOk G) {tm fm : Mask} {b : Bool} {r : List Nat} {c : Nat}
    {w : List Nat} (ht : b = true → tm.testBit c = true) (hf : b = false → fm.testBit c = true) :
    ∀ {n : Nat} {X : List GSym} {m : Mask} {l : List (Bool × List GSym × Mask)} {u : List Nat},
    split0 G tm fm n X m = .ok l → M G X u → RestOk m r → u ++ r = c :: w →
    ∃ X' m', (b, X', m') ∈ l ∧ M G X' u ∧ RestOk m' r
  | 0, X, m, l, u, h, _, _, _ => by simp [split0] at h
  | n + 1, X, m, l, u, h, hu, hm, hc => by
    simp only [split0] at h
    cases h0 : (noRest m && !nonempty G X) with
    | true => rw [h0] at h; simp at h
    | false =>
    rw [h0] at h
    simp only [cond_false] at h
    have hfirst : (firstOf G X m).testBit c = true := by
      obtain ⟨c', w', h1, h2⟩ := current_sound hG hu hm h0
      rw [hc] at h1
      rw [(List.cons.inj h1).1]
      exact h2
    cases h1 : Nat.beq (firstOf G X m &&& fm) 0 with
    | true =>
      rw [h1] at h
      cases h
      cases b with
      | true => exact ⟨X, m, by simp, hu, hm⟩
      | false => exact (and_beq_zero h1 hfirst (hf rfl)).elim
    | false =>
      rw [h1] at h
      cases h2 : Nat.beq (firstOf G X m &&& tm) 0 with
      | true =>
        rw [h2] at h
        cases h
        cases b with
        | false => exact ⟨X, m, by simp, hu, hm⟩
        | true => exact (and_beq_zero h2 hfirst (ht rfl)).elim
      | false =>
        rw [h2] at h
        simp only [cond_false] at h
        match X, h, hu, hfirst with
        | [], h, hu, _ =>
          have := M_nil hu
          subst this
          simp only [List.nil_append] at hc
          subst hc
          simp only [Except.ok.injEq] at h
          subst h
          have hm : m.testBit c = true := by
            rcases hm with rfl | hm
            · simp [noRest, nonempty] at h0
            · exact hm.2
          cases b with
          | true => exact ⟨[], m &&& tm, by simp, .nil, .of_head (by simp [hm, ht rfl])⟩
          | false => exact ⟨[], m &&& fm, by simp, .nil, .of_head (by simp [hm, hf rfl])⟩
        | .T a :: X', h, hu, _ =>
          obtain ⟨d, v, rfl, ha, hd, hv⟩ := M_T hu
          simp only [List.cons_append, List.cons.injEq] at hc
          obtain ⟨rfl, rfl⟩ := hc
          simp only [Except.ok.injEq] at h
          subst h
          cases b with
          | true => exact ⟨.T (a &&& tm) :: X', m, by simp, .T (by simp [ha, ht rfl]) hd hv, hm⟩
          | false => exact ⟨.T (a &&& fm) :: X', m, by simp, .T (by simp [ha, hf rfl]) hd hv, hm⟩
        | .N j a :: X', h, hu, _ =>
          cases hn : G.nullable j with
          | true =>
            simp only [hn, cond_true] at h
            obtain ⟨q, hq, hu'⟩ := expand_sound hG hu
            obtain ⟨cs, h3, h4⟩ := collect_mem h q hq
            obtain ⟨X'', m'', h5, h6, h7⟩ := split0_sound hG ht hf h3 hu' hm hc
            exact ⟨X'', m'', h4 _ h5, h6, h7⟩
          | false =>
            simp only [hn, cond_false, Except.ok.injEq] at h
            subst h
            obtain ⟨q, v, v', rfl, hp, hv, ha, hw⟩ := M_N hu
            have hne := (N_first hG hp hv).2
            cases v with
            | nil => rw [hne rfl] at hn; simp at hn
            | cons d v =>
              simp only [List.cons_append, List.cons.injEq] at hc
              obtain ⟨rfl, _⟩ := hc
              cases b with
              | true =>
                exact ⟨.N j (a &&& tm) :: X', m, by simp, .N hp hv (ha.and (ht rfl)) hw, hm⟩
              | false =>
                exact ⟨.N j (a &&& fm) :: X', m, by simp, .N hp hv (ha.and (hf rfl)) hw, hm⟩

/-- A question about the token at an offset. -/
theorem split_sound {G : Tables} (hG : TOk G) {tm fm : Mask} {r : List Nat}
    (hr' : ∀ d, r = [d] → d = EOFC ∨ d = Kw.sym_semi.ctorIdx) :
    ∀ {k : Nat} {X : List GSym} {m : Mask} {l : List (Bool × List GSym × Mask)} {u : List Nat},
    split G tm fm k X m = .ok l → M G X u → RestOk m r →
    ∃ c, (u ++ r)[k]? = some c ∧ ∀ b : Bool, (b = true → tm.testBit c = true) →
      (b = false → fm.testBit c = true) → ∃ X' m', (b, X', m') ∈ l ∧ M G X' u ∧ RestOk m' r
  | 0, X, m, l, u, h, hu, hm => by
    simp only [split] at h
    obtain ⟨c, w, hur, _⟩ := current_sound hG hu hm (split0_current h)
    exact ⟨c, by simp [hur], fun b ht hf => split0_sound hG ht hf h hu hm hur⟩
  | k + 1, X, m, l, u, h, hu, hm => by
    simp only [split] at h
    split at h
    · simp at h
    · next hs hh =>
      obtain ⟨Y, hY, h1, h2⟩ := heads_sound hG hh hu
      obtain ⟨cs, h3, h4⟩ := collect_mem h Y hY
      rcases h2 with rfl | ⟨a, Z, rfl⟩
      · have := M_nil h1
        subst this
        simp only at h3
        cases k with
        | zero =>
          simp only at h3
          cases he : (noRest m || m.has EOFC || m.has Kw.sym_semi.ctorIdx) with
          | true => rw [he] at h3; simp at h3
          | false =>
            rw [he] at h3
            simp only [cond_false, Except.ok.injEq] at h3
            subst h3
            rw [Bool.or_eq_false_iff, Bool.or_eq_false_iff] at he
            have hm' := hm.head he.1.1
            match r, hr', hm, hm' with
            | [], _, _, hm' => exact (hm'.1 rfl).elim
            | [d], hr', _, hm' =>
              have h5 : m.has d = true := hm'.2
              rcases hr' d rfl with rfl | rfl
              · rw [he.1.2] at h5; simp at h5
              · rw [he.2] at h5; simp at h5
            | d :: e :: r, _, hm, _ =>
              refine ⟨e, by simp, fun b _ _ => ⟨[], m, h4 _ ?_, .nil, hm⟩⟩
              cases b <;> simp
        | succ k => simp at h3
      · obtain ⟨d, v, rfl, ha, hd, hv⟩ := M_T h1
        simp only at h3
        split at h3
        · simp at h3
        · next l' hl' =>
          simp only [Except.ok.injEq] at h3
          subst h3
          obtain ⟨c, hc, h5⟩ := split_sound hG hr' hl' hv hm
          refine ⟨c, by simpa using hc, fun b ht hf => ?_⟩
          obtain ⟨X', m', h6, h7, h8⟩ := h5 b ht hf
          exact ⟨.T a :: X', m', h4 _ (List.mem_map.2 ⟨_, h6, rfl⟩), .T ha hd h7, h8⟩

theorem nt_get : ∀ n ∈ NT.all, NT.all[n.ctorIdx]? = some n := by decide +kernel
theorem mem_nt_all (n : NT) : n ∈ NT.all := by cases n <;> decide +kernel

theorem ntEq_iff {a b : NT} (h : ntEq a b = true) : a = b := by
  have h1 := nt_get a (mem_nt_all a)
  rw [Nat.eq_of_beq_eq_true h, nt_get b (mem_nt_all b)] at h1
  exact (Option.some.inj h1).symm

theorem symEq_eq {a b : GSym} (h : symEq a b = true) : a = b := by
  cases a <;> cases b <;> simp only [symEq, Bool.and_eq_true, Bool.false_eq_true] at h
  · rw [Nat.eq_of_beq_eq_true h]
  · rw [ntEq_iff h.1, Nat.eq_of_beq_eq_true h.2]

theorem streamEq_eq : ∀ {X Y : List GSym}, streamEq X Y = true → X = Y
  | [], [], _ => rfl
  | a :: X, b :: Y, h => by
    simp only [streamEq, Bool.and_eq_true] at h
    rw [symEq_eq h.1, streamEq_eq h.2]
  | [], _ :: _, h => by simp [streamEq] at h
  | _ :: _, [], h => by simp [streamEq] at h

theorem prodsEq_eq : ∀ {X Y : List (List GSym)}, prodsEq X Y = true → X = Y
  | [], [], _ => rfl
  | a :: X, b :: Y, h => by
    simp only [prodsEq, Bool.and_eq_true] at h
    rw [streamEq_eq h.1, prodsEq_eq h.2]
  | [], _ :: _, h => by simp [prodsEq] at h
  | _ :: _, [], h => by simp [prodsEq] at h

theorem symLe_cons {G : Tables} (hG : TOk G) {s p : GSym} (h : symLe G s p = true) {X : List GSym}
    {u : List Nat} (hu : M G (s :: X) u) :
    ∃ v w, u = v ++ w ∧ M G X w ∧ ∀ {Y : List GSym} {w' : List Nat}, M G Y w' → M G (p :: Y) (v ++ w') := by
  cases s with
  | T a =>
    cases p with
    | T b =>
      obtain ⟨c, w, rfl, ha, hc, hw⟩ := M_T hu
      exact ⟨[c], w, rfl, hw, fun hY => .T (Mask.le_has h ha) hc hY⟩
    | N => simp [symLe] at h
  | N n a =>
    cases p with
    | T => simp [symLe] at h
    | N k b =>
      simp only [symLe, Bool.and_eq_true] at h
      have := ntEq_iff h.1
      subst this
      obtain ⟨r, v, w, rfl, hp, hv, ha, hw⟩ := M_N hu
      exact ⟨v, w, rfl, hw, fun hY => .N hp hv (HeadIn.le ((N_first hG hp hv).1.and ha) h.2) hY⟩

theorem firstSome_some {α β : Type} {f : α → Option β} : ∀ {l : List α} {b : β}, firstSome f l = some b →
    ∃ a ∈ l, f a = some b
  | [], _, h => by simp [firstSome] at h
  | a :: l, b, h => by
    simp only [firstSome] at h
    split at h
    · next b' hb => cases h; exact ⟨a, by simp, hb⟩
    · obtain ⟨a', h1, h2⟩ := firstSome_some h
      exact ⟨a', by simp [h1], h2⟩

theorem fold_sound {G : Tables} (hG : TOk G) : ∀ {n : Nat} {P X Y : List GSym} {u : List Nat},
    fold G n P X = some Y → M G X u → ∃ v w, u = v ++ w ∧ M G P v ∧ M G Y w
  | 0, _, _, _, _, h, _ => by simp [fold] at h
  | n + 1, [], X, Y, u, h, hu => by
    simp only [fold, Option.some.injEq] at h; subst h
    exact ⟨[], u, rfl, .nil, hu⟩
  | n + 1, p :: ps, X, Y, u, h, hu => by
    simp only [fold] at h
    split at h
    · next Y' hd =>
      cases h
      match X, hd, hu with
      | [], hd, _ => simp at hd
      | s :: X', hd, hu =>
        simp only at hd
        cases hs : symLe G s p with
        | false => rw [hs] at hd; simp at hd
        | true =>
          rw [hs] at hd
          obtain ⟨v, w, rfl, hw, hp⟩ := symLe_cons hG hs hu
          obtain ⟨v', w', rfl, h1, h2⟩ := fold_sound hG (by simpa using hd) hw
          exact ⟨v ++ v', w', by simp, hp h1, h2⟩
    · match p, h with
      | .T _, h => simp at h
      | .N j a, h =>
        simp only at h
        cases hb : (!Nat.beq a ALL || (!G.nullable j && Nat.beq (G.first j &&& firstOf G X ALL) 0)) with
        | true => rw [hb] at h; simp at h
        | false =>
          rw [hb] at h
          simp only [cond_false] at h
          simp only [Bool.or_eq_false_iff, Bool.not_eq_eq_eq_not, Bool.not_false] at hb
          have := Nat.eq_of_beq_eq_true hb.1
          subst this
          obtain ⟨r, hr, h⟩ := firstSome_some h
          obtain ⟨v, w, rfl, h1, h2⟩ := fold_sound hG h hu
          obtain ⟨v1, v2, rfl, h3, h4⟩ := M_split h1
          exact ⟨v1 ++ v2, w, rfl, .N hr h3 (HeadIn.all (M_lt h3)) h4, h2⟩

theorem streamLe_sound {G : Tables} (hG : TOk G) : ∀ {X Y : List GSym} {u : List Nat},
    streamLe G X Y = true → M G X u → M G Y u
  | [], [], _, _, hu => hu
  | a :: X, b :: Y, u, h, hu => by
    simp only [streamLe, Bool.and_eq_true] at h
    obtain ⟨v, w, rfl, hw, hp⟩ := symLe_cons hG h.1 hu
    exact hp (streamLe_sound hG h.2 hw)
  | [], _ :: _, _, h, _ => by simp [streamLe] at h
  | _ :: _, [], _, h, _ => by simp [streamLe] at h

theorem mergeX_sound {G : Tables} : ∀ {X Y Z : List GSym} {u : List Nat}, mergeX X Y = some Z →
    (M G X u ∨ M G Y u) → M G Z u
  | .T a :: x, .T b :: y, Z, u, h, hu => by
    simp only [mergeX] at h
    cases hab : Nat.beq a b with
    | true =>
      rw [hab] at h
      have := Nat.eq_of_beq_eq_true hab
      subst this
      simp only [cond_true, Option.map_eq_some_iff] at h
      obtain ⟨z, hz, rfl⟩ := h
      rcases hu with hu | hu
      all_goals
        obtain ⟨c, w, rfl, ha, hc, hw⟩ := M_T hu
        first
          | exact .T ha hc (mergeX_sound hz (.inl hw))
          | exact .T ha hc (mergeX_sound hz (.inr hw))
    | false =>
      rw [hab] at h
      cases hs : streamEq x y with
      | false => rw [hs] at h; simp at h
      | true =>
        rw [hs] at h
        simp only [cond_false, cond_true, Option.some.injEq] at h
        subst h
        have := streamEq_eq hs
        subst this
        rcases hu with hu | hu
        all_goals
          obtain ⟨c, w, rfl, ha, hc, hw⟩ := M_T hu
          exact .T (by simp [ha]) hc hw
  | .N n a :: x, .N k b :: y, Z, u, h, hu => by
    simp only [mergeX] at h
    cases hnk : ntEq n k with
    | false => rw [hnk] at h; simp at h
    | true =>
      rw [hnk] at h
      have := ntEq_iff hnk
      subst this
      cases hab : Nat.beq a b with
      | true =>
        rw [hab] at h
        have := Nat.eq_of_beq_eq_true hab
        subst this
        simp only [cond_true, Option.map_eq_some_iff] at h
        obtain ⟨z, hz, rfl⟩ := h
        rcases hu with hu | hu
        all_goals
          obtain ⟨r, v, w, rfl, hp, hv, ha, hw⟩ := M_N hu
          first
            | exact .N hp hv ha (mergeX_sound hz (.inl hw))
            | exact .N hp hv ha (mergeX_sound hz (.inr hw))
      | false =>
        rw [hab] at h
        cases hs : streamEq x y with
        | false => rw [hs] at h; simp at h
        | true =>
          rw [hs] at h
          simp only [cond_false, cond_true, Option.some.injEq] at h
          subst h
          have := streamEq_eq hs
          subst this
          rcases hu with hu | hu
          · obtain ⟨r, v, w, rfl, hp, hv, ha, hw⟩ := M_N hu
            exact .N hp hv ha.left hw
          · obtain ⟨r, v, w, rfl, hp, hv, ha, hw⟩ := M_N hu
            exact .N hp hv ha.right hw
  | [], _, _, _, h, _ => by simp [mergeX] at h
  | _ :: _, [], _, _, h, _ => by simp [mergeX] at h
  | .T _ :: _, .N _ _ :: _, _, _, h, _ => by simp [mergeX] at h
  | .N _ _ :: _, .T _ :: _, _, _, h, _ => by simp [mergeX] at h

end Verif.GI
