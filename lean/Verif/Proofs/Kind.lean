import Verif.Analysis.Kind
import Verif.Proofs.BlameSpec
import Verif.Proofs.Unit
import Verif.Proofs.Masks
import Verif.Spec.Kind
/-! The type of a statement is determined by its first words. -/
namespace Verif.Kind
open Core Interp Spec Program

variable {C : Ctx}

/-! ### Pruning -/

theorem ends_sound : ∀ {c : Cmd} {s s' : St} {fl : Flow}, ends c = true → exec C c s = .ok (fl, s') → fl ≠ .norm := by
  intro c
  induction c with
  | ret e =>
    intro s s' fl _ h
    simp only [exec] at h
    cases he : evalExp C s e with
    | ok p => rw [he, Out.bind_ok] at h; cases h; simp
    | err e => rw [he] at h; cases h
    | panic e => rw [he] at h; cases h
    | timeout => rw [he] at h; cases h
  | fail o l =>
    intro s s' fl _ h
    simp only [exec] at h
    cases he : offTok C s o with
    | ok p => rw [he, Out.bind_ok] at h; cases h
    | err e => rw [he] at h; cases h
    | panic e => rw [he] at h; cases h
    | timeout => rw [he] at h; cases h
  | seq a b iha ihb =>
    intro s s' fl h0 h
    simp only [exec] at h
    simp only [ends, Bool.or_eq_true] at h0
    split at h
    · next s1 h1 =>
      rcases h0 with h0 | h0
      · exact absurd rfl (iha h0 h1)
      · exact ihb h0 h
    · next hn => rintro rfl; exact hn _ h
  | ite c a b iha ihb =>
    intro s s' fl h0 h
    simp only [exec] at h
    simp only [ends, Bool.and_eq_true] at h0
    split at h
    · exact iha h0.1 h
    · exact ihb h0.2 h
    all_goals cases h
  | _ => intro s s' fl h; cases h

/-- The oracle is right. -/
def Right (C : Ctx) (s : St) (q : Cond → Option Bool) : Prop :=
  ∀ c b b', q c = some b → evalCond C s c = .ok b' → b' = b

theorem known_sound {q : Cond → Option Bool} {s : St} (hq : Right C s q) :
    ∀ {c : Cond} {b b' : Bool}, known q c = some b → evalCond C s c = .ok b' → b' = b := by
  intro c
  induction c with
  | or a b iha ihb =>
    intro r r' h1 h2
    simp only [known] at h1
    simp only [evalCond] at h2
    cases ha : evalCond C s a with
    | ok v =>
      rw [ha, Out.bind_ok] at h2
      split at h1
      · next hk =>
        cases h1
        rw [iha hk ha] at h2
        cases h2; rfl
      · next hk =>
        rw [iha hk ha] at h2
        exact ihb h1 h2
      · cases h1
    | err e => rw [ha] at h2; cases h2
    | panic e => rw [ha] at h2; cases h2
    | timeout => rw [ha] at h2; cases h2
  | _ => intro r r' h1 h2; exact hq _ _ _ h1 h2

theorem prune_sound {q : Cond → Option Bool} {s : St} (hq : Right C s q) :
    ∀ {c : Cmd} {r : Flow × St}, exec C c s = .ok r → exec C (prune q c) s = .ok r := by
  intro c
  induction c with
  | ite c a b iha ihb =>
    intro r h
    simp only [exec] at h
    simp only [prune]
    split
    · next hk =>
      split at h
      · exact iha h
      · next he => cases known_sound hq hk he
      all_goals cases h
    · next hk =>
      split at h
      · next he => cases known_sound hq hk he
      · exact ihb h
      all_goals cases h
    · simp only [exec]; exact h
  | seq a b iha ihb =>
    intro r h
    simp only [exec] at h
    simp only [prune]
    split at h
    · next s1 h1 =>
      have h2 := iha h1
      split
      · next hp =>
        rw [hp] at h2
        simp only [exec] at h2
        cases h2
        exact ihb h
      · split
        · next he => exact absurd rfl (ends_sound he h2)
        · simp only [exec, h2]; exact h
    · next hn =>
      have h2 := iha h
      obtain ⟨fl, s1⟩ := r
      have hfl : fl ≠ .norm := by rintro rfl; exact hn _ h
      split
      · next hp =>
        rw [hp] at h2
        simp only [exec] at h2
        cases h2
        exact absurd rfl hfl
      · split
        · exact h2
        · simp only [exec, h2]
          cases fl <;> first | exact absurd rfl hfl | rfl
  | _ => intro r h; exact h

theorem calls_sound {c : Cmd} {f : Fn} {s s' : St} {v : Val} (h : calls c = some f)
    (he : exec C c s = .ok (.ret v, s')) : ∃ vs, C.call f vs s.ps = .ok (v, s'.ps) := by
  have key : ∀ {e : Exp} {as : List Atom} {p : Val × St}, e = .call f as → evalExp C s e = .ok p →
      ∃ vs, C.call f vs s.ps = .ok (p.1, p.2.ps) := by
    rintro e as p rfl he
    simp only [evalExp] at he
    cases ha : evalAtoms s.env as with
    | ok vs =>
      rw [ha, Out.bind_ok] at he
      cases hc : C.call f vs s.ps with
      | ok r => rw [hc, Out.bind_ok] at he; cases he; exact ⟨vs, hc⟩
      | err e => rw [hc] at he; cases he
      | panic e => rw [hc] at he; cases he
      | timeout => rw [hc] at he; cases he
    | err e => rw [ha] at he; cases he
    | panic e => rw [ha] at he; cases he
    | timeout => rw [ha] at he; cases he
  unfold calls at h
  split at h
  · next x f' as y =>
    split at h
    · next hxy =>
      cases h
      have := Nat.eq_of_beq_eq_true hxy
      subst this
      simp only [exec] at he
      cases hx : evalExp C s (.call f as) with
      | ok p =>
        obtain ⟨vs, h1⟩ := key rfl hx
        rw [hx] at he
        simp only [Out.bind_ok, evalExp] at he
        cases he
        exact ⟨vs, by simpa [Env.set] using h1⟩
      | err e => rw [hx] at he; cases he
      | panic e => rw [hx] at he; cases he
      | timeout => rw [hx] at he; cases he
    · cases h
  · next f' as =>
    cases h
    simp only [exec] at he
    cases hx : evalExp C s (.call f as) with
    | ok p =>
      obtain ⟨vs, h1⟩ := key rfl hx
      rw [hx] at he
      cases he
      exact ⟨vs, h1⟩
    | err e => rw [hx] at he; cases he
    | panic e => rw [hx] at he; cases he
    | timeout => rw [hx] at he; cases he
  · cases h

/-! ### Types of results -/

/-- A node of one of the types. -/
def Res (S : List NodeType) (v : Val) : Prop := ∃ n, v = .node n ∧ n.ty ∈ S

/-- What is known of a value. -/
def Holds (a : Know) (v : Val) : Prop := ∀ l, a = some l → Res l v

theorem Holds.left {a b : Know} {v : Val} (h : Holds a v) : Holds (a.join b) v := by
  intro l hl
  unfold Know.join at hl
  split at hl
  · cases hl
    obtain ⟨n, h1, h2⟩ := h _ rfl
    exact ⟨n, h1, List.mem_append_left _ h2⟩
  · cases hl

theorem Holds.right {a b : Know} {v : Val} (h : Holds b v) : Holds (a.join b) v := by
  intro l hl
  unfold Know.join at hl
  split at hl
  · cases hl
    obtain ⟨n, h1, h2⟩ := h _ rfl
    exact ⟨n, h1, List.mem_append_right _ h2⟩
  · cases hl

theorem within_sound {S : List NodeType} {a : Know} {v : Val} (h : within S a = true) (hv : Holds a v) : Res S v := by
  unfold within at h
  split at h
  · next l =>
    obtain ⟨n, h1, h2⟩ := hv _ rfl
    refine ⟨n, h1, ?_⟩
    have := List.all_eq_true.1 h _ h2
    obtain ⟨u, hu, he⟩ := List.any_eq_true.1 this
    rw [AI.nodeType_inj (Nat.eq_of_beq_eq_true he)]
    exact hu
  · cases h

theorem ne_of_beq {x y : Var} (h : (!Nat.beq x y) = true) : x ≠ y := by
  rintro rfl
  simp at h

theorem set_ne {env : Env} {x y : Var} {v : Val} (h : (!Nat.beq x y) = true) : env.set y v x = env x := by
  unfold Env.set
  rw [if_neg (ne_of_beq h)]

theorem evalExp_keeps {x : Var} {e : Exp} {s : St} {p : Val × St} (hk : keepsE x e = true)
    (h : evalExp C s e = .ok p) : p.2.env x = s.env x := by
  cases e with
  | pop y =>
    simp only [evalExp] at h
    split at h
    · split at h
      · cases h; exact set_ne hk
      · cases h
    · cases h
  | call f as =>
    simp only [evalExp] at h
    cases ha : evalAtoms s.env as with
    | ok vs =>
      rw [ha, Out.bind_ok] at h
      cases hc : C.call f vs s.ps with
      | ok r => rw [hc, Out.bind_ok] at h; cases h; rfl
      | err e => rw [hc] at h; cases h
      | panic e => rw [hc] at h; cases h
      | timeout => rw [hc] at h; cases h
    | err e => rw [ha] at h; cases h
    | panic e => rw [ha] at h; cases h
    | timeout => rw [ha] at h; cases h
  | construct nt =>
    simp only [evalExp] at h
    cases hc : construct C.U C.toks s.ps nt with
    | ok r => rw [hc, Out.bind_ok] at h; cases h; rfl
    | err e => rw [hc] at h; cases h
    | panic e => rw [hc] at h; cases h
    | timeout => rw [hc] at h; cases h
  | prec o =>
    simp only [evalExp] at h
    cases hc : evalOff s.env o with
    | ok r =>
      rw [hc, Out.bind_ok] at h
      cases hg : getPrecedence C.U C.toks s.ps r with
      | ok q => rw [hg, Out.bind_ok] at h; cases h; rfl
      | err e => rw [hg] at h; cases h
      | panic e => rw [hg] at h; cases h
      | timeout => rw [hg] at h; cases h
    | err e => rw [hc] at h; cases h
    | panic e => rw [hc] at h; cases h
    | timeout => rw [hc] at h; cases h
  | upperLit o =>
    simp only [evalExp] at h
    cases hc : offTok C s o with
    | ok r => rw [hc, Out.bind_ok] at h; cases h; rfl
    | err e => rw [hc] at h; cases h
    | panic e => rw [hc] at h; cases h
    | timeout => rw [hc] at h; cases h
  | cond c =>
    simp only [evalExp] at h
    cases hc : evalCond C s c with
    | ok r => rw [hc, Out.bind_ok] at h; cases h; rfl
    | err e => rw [hc] at h; cases h
    | panic e => rw [hc] at h; cases h
    | timeout => rw [hc] at h; cases h
  | _ => simp only [evalExp] at h; cases h; rfl

/-- The bind of an expression's value. -/
theorem bind_ok_of {α β : Type} {o : Out α} {f : α → Out β} {r : β} (h : (o >>= f) = .ok r) :
    ∃ a, o = .ok a ∧ f a = .ok r := by
  cases o with
  | ok a => exact ⟨a, rfl, h⟩
  | err e => cases h
  | panic e => cases h
  | timeout => cases h

theorem keeps_sound {x : Var} : ∀ {c : Cmd} {s s' : St} {fl : Flow}, keeps x c = true →
    exec C c s = .ok (fl, s') → s'.env x = s.env x := by
  intro c
  induction c with
  | skip => intro s s' fl _ h; simp only [exec] at h; cases h; rfl
  | brk => intro s s' fl _ h; simp only [exec] at h; cases h; rfl
  | next =>
    intro s s' fl _ h
    simp only [exec] at h
    obtain ⟨p, _, h2⟩ := bind_ok_of h
    cases h2; rfl
  | fail o l =>
    intro s s' fl _ h
    simp only [exec] at h
    obtain ⟨p, _, h2⟩ := bind_ok_of h
    cases h2
  | seq a b iha ihb =>
    intro s s' fl hk h
    simp only [exec] at h
    simp only [keeps, Bool.and_eq_true] at hk
    split at h
    · next s1 h1 => rw [ihb hk.2 h, iha hk.1 h1]
    · exact iha hk.1 h
  | set y e =>
    intro s s' fl hk h
    simp only [exec] at h
    simp only [keeps, Bool.and_eq_true] at hk
    obtain ⟨p, h1, h2⟩ := bind_ok_of h
    cases h2
    rw [← evalExp_keeps hk.2 h1]
    exact set_ne hk.1
  | push y k e =>
    intro s s' fl hk h
    simp only [exec] at h
    simp only [keeps, Bool.and_eq_true] at hk
    obtain ⟨p, h1, h2⟩ := bind_ok_of h
    split at h2
    · cases h2
      rw [← evalExp_keeps hk.2 h1]
      exact set_ne hk.1
    · cases h2
  | pushVec y k e =>
    intro s s' fl hk h
    simp only [exec] at h
    simp only [keeps, Bool.and_eq_true] at hk
    obtain ⟨p, h1, h2⟩ := bind_ok_of h
    split at h2
    · cases h2
      rw [← evalExp_keeps hk.2 h1]
      exact set_ne hk.1
    · cases h2
  | append y e =>
    intro s s' fl hk h
    simp only [exec] at h
    simp only [keeps, Bool.and_eq_true] at hk
    obtain ⟨p, h1, h2⟩ := bind_ok_of h
    split at h2
    · cases h2
      rw [← evalExp_keeps hk.2 h1]
      exact set_ne hk.1
    · cases h2
  | setType y nt =>
    intro s s' fl hk h
    simp only [exec] at h
    split at h
    · cases h; exact set_ne hk
    · cases h
  | ite c a b iha ihb =>
    intro s s' fl hk h
    simp only [exec] at h
    simp only [keeps, Bool.and_eq_true] at hk
    split at h
    · exact iha hk.1 h
    · exact ihb hk.2 h
    all_goals cases h
  | ret e =>
    intro s s' fl hk h
    simp only [exec] at h
    obtain ⟨p, h1, h2⟩ := bind_ok_of h
    cases h2
    exact evalExp_keeps hk h1
  | loop a ih =>
    intro s s' fl hk h
    simp only [exec] at h
    generalize C.fuel = n at h
    induction n generalizing s with
    | zero => cases h
    | succ n ihn =>
      simp only [iterate] at h
      split at h
      · next s1 h1 => rw [ihn h, ih hk h1]
      · next s1 h1 => cases h; exact ih hk h1
      · next s1 h1 => cases h; exact ih hk h1
      all_goals cases h
  | scan y lo hi a ih =>
    intro s s' fl hk h
    simp only [keeps, Bool.and_eq_true] at hk
    have key : ∀ (done : St → Out (Flow × St)), (∀ s fl s', done s = .ok (fl, s') → s'.env x = s.env x) →
        ∀ (n i : Nat) (s : St), scanLoop (exec C a) y done n i s = .ok (fl, s') → s'.env x = s.env x := by
      intro done hd n
      induction n with
      | zero => intro i s h; exact hd _ _ _ h
      | succ n ihn =>
        intro i s h
        simp only [scanLoop] at h
        have hset : ∀ v, (s.env.set y v) x = s.env x := fun v => set_ne hk.1
        split at h
        · next s1 h1 => rw [ihn _ _ h, ih hk.2 h1]; exact hset _
        · next s1 h1 => cases h; rw [ih hk.2 h1]; exact hset _
        · next s1 h1 => cases h; rw [ih hk.2 h1]; exact hset _
        all_goals cases h
    cases hi with
    | none =>
      simp only [exec] at h
      exact key _ (by intro s fl s' h; cases h) _ _ _ h
    | some hi =>
      simp only [exec] at h
      split at h
      · exact key _ (by intro s fl s' h; cases h; rfl) _ _ _ h
      all_goals cases h
  | drain v y a ih =>
    intro s s' fl hk h
    simp only [keeps, Bool.and_eq_true] at hk
    simp only [exec] at h
    split at h
    · next ns _ =>
      have hset : (s.env.set v (.vec [])) x = s.env x := set_ne hk.1.1
      rw [← hset]
      generalize ns.reverse = l at h
      have hs : (s.env.set v (.vec [])) x = (⟨s.ps, s.env.set v (.vec [])⟩ : St).env x := rfl
      rw [hs]
      generalize (⟨s.ps, s.env.set v (.vec [])⟩ : St) = s1 at h ⊢
      induction l generalizing s1 with
      | nil => simp only [drainLoop] at h; cases h; rfl
      | cons n l ihl =>
        simp only [drainLoop] at h
        have hset' : ∀ w, (s1.env.set y w) x = s1.env x := fun w => set_ne hk.1.2
        split at h
        · next s2 h1 => rw [ihl _ h, ih hk.2 h1]; exact hset' _
        · next s2 h1 => cases h; rw [ih hk.2 h1]; exact hset' _
        · next s2 h1 => cases h; rw [ih hk.2 h1]; exact hset' _
        all_goals cases h
    · cases h
  | tryElse y f as a ih =>
    intro s s' fl hk h
    simp only [keeps, Bool.and_eq_true] at hk
    simp only [exec] at h
    obtain ⟨vs, _, h2⟩ := bind_ok_of h
    split at h2
    · cases h2; exact set_ne hk.1
    · exact ih hk.2 h2
    all_goals cases h2

theorem pushNode_ty (n : Node) (k : Key) (c : Node) : (n.pushNode k c).ty = n.ty := by cases n; rfl
theorem pushVec_ty (n : Node) (k : Key) (c : List Node) : (n.pushVec k c).ty = n.ty := by cases n; rfl
theorem setType_ty (n : Node) (t : NodeType) : (n.setType t).ty = t := by cases n; rfl

theorem construct_ty {U : Unicode} {toks : List Token} {ps : PS} {nt : NodeType} {n : Node}
    (hnt : nt ≠ .Unknown) (h : construct U toks ps nt = .ok n) : n.ty = nt := by
  have key : ∀ m, attachComments toks ps m = .ok n → n.ty = m.ty := by
    intro m hm
    unfold attachComments at hm
    split at hm
    · cases hm
      repeat' split
      all_goals simp only [pushVec_ty]
    · cases hm
  unfold construct at h
  split at h
  · cases h
  · cases h
  · cases h
  · rw [if_neg hnt] at h
    split at h
    · next he => rw [key _ h, he]; rfl
    · rw [key _ h]; rfl

/-- Calls have results of the types in the table. -/
def Typed (T : Fn → Know) (call : Fn → List Val → PS → Out (Val × PS)) : Prop :=
  ∀ f vs ps v ps' l, T f = some l → call f vs ps = .ok (v, ps') → Res l v

theorem expTypes_sound {T : Fn → Know} (hT : Typed T C.call) {x : Var} {a : Know} {e : Exp} {s : St} {p : Val × St}
    (ha : Holds a (s.env x)) (h : evalExp C s e = .ok p) : Holds (expTypes T x a e) p.1 := by
  intro l hl
  cases e with
  | var y =>
    simp only [evalExp] at h
    cases h
    simp only [expTypes] at hl
    split at hl
    · next hxy => rw [← Nat.eq_of_beq_eq_true hxy]; exact ha l hl
    · cases hl
  | construct nt =>
    simp only [evalExp] at h
    obtain ⟨n, h1, h2⟩ := bind_ok_of h
    cases h2
    simp only [expTypes] at hl
    split at hl
    · cases hl
    · next hu =>
      cases hl
      have : nt ≠ .Unknown := by rintro rfl; exact hu (Nat.beq_refl _)
      exact ⟨n, rfl, by simp [construct_ty this h1]⟩
  | empty nt =>
    simp only [evalExp] at h
    cases h
    cases hl
    exact ⟨_, rfl, by simp [Node.empty, Node.ty]⟩
  | call f as =>
    simp only [evalExp] at h
    obtain ⟨vs, _, h2⟩ := bind_ok_of h
    obtain ⟨r, h3, h4⟩ := bind_ok_of h2
    cases h4
    exact hT _ _ _ _ _ _ hl h3
  | _ => cases hl

/-- How a command may end. -/
def EndOk (S : List NodeType) (x : Var) (b : Bool) (a : Know) : Flow → St → Prop
  | .norm, s => Holds a (s.env x)
  | .brk, s => b = true → Res S (s.env x)
  | .ret v, _ => Res S v

theorem flow_sound {T : Fn → Know} (hT : Typed T C.call) {S : List NodeType} {x : Var} :
    ∀ {c : Cmd} {b : Bool} {a a' : Know} {s s' : St} {fl : Flow}, flow T S x b c a = some a' →
      Holds a (s.env x) → exec C c s = .ok (fl, s') → EndOk S x b a' fl s' := by
  intro c
  induction c with
  | skip =>
    intro b a a' s s' fl hf ha h
    simp only [exec] at h; simp only [flow] at hf
    cases h; cases hf; exact ha
  | next =>
    intro b a a' s s' fl hf ha h
    simp only [exec] at h; simp only [flow] at hf
    obtain ⟨p, _, h2⟩ := bind_ok_of h
    cases h2; cases hf; exact ha
  | brk =>
    intro b a a' s s' fl hf ha h
    simp only [exec] at h; simp only [flow] at hf
    cases h
    split at hf
    · next hw =>
      intro hb
      subst hb
      exact within_sound (by simpa using hw) ha
    · cases hf
  | fail o l =>
    intro b a a' s s' fl hf ha h
    simp only [exec] at h
    obtain ⟨p, _, h2⟩ := bind_ok_of h
    cases h2
  | seq c d ihc ihd =>
    intro b a a' s s' fl hf ha h
    simp only [exec] at h; simp only [flow] at hf
    split at hf
    · next a1 h1 =>
      split at h
      · next s1 h2 => exact ihd hf (ihc h1 ha h2) h
      · next hn =>
        have := ihc h1 ha h
        cases fl with
        | norm => exact absurd h (hn _)
        | brk => exact this
        | ret v => exact this
    · cases hf
  | set y e =>
    intro b a a' s s' fl hf ha h
    simp only [exec] at h; simp only [flow] at hf
    obtain ⟨p, h1, h2⟩ := bind_ok_of h
    cases h2
    split at hf
    · next hxy =>
      cases hf
      have := Nat.eq_of_beq_eq_true hxy
      subst this
      show Holds _ (p.2.env.set x p.1 x)
      unfold Env.set
      rw [if_pos rfl]
      exact expTypes_sound hT ha h1
    · next hxy =>
      split at hf
      · next hk =>
        cases hf
        show Holds _ (p.2.env.set y p.1 x)
        rw [set_ne (by rw [Bool.not_eq_true'] ; exact Bool.eq_false_iff.2 hxy), evalExp_keeps hk h1]
        exact ha
      · cases hf
  | push y k e =>
    intro b a a' s s' fl hf ha h
    simp only [exec] at h; simp only [flow] at hf
    obtain ⟨p, h1, h2⟩ := bind_ok_of h
    split at hf
    · next hk =>
      cases hf
      split at h2
      · next n c hn _ =>
        cases h2
        show Holds _ (p.2.env.set y _ x)
        by_cases hxy : x = y
        · subst hxy
          unfold Env.set
          rw [if_pos rfl]
          rw [evalExp_keeps hk h1] at hn
          intro l hl
          obtain ⟨m, h3, h4⟩ := ha l hl
          rw [hn] at h3
          cases h3
          exact ⟨_, rfl, by rw [pushNode_ty]; exact h4⟩
        · unfold Env.set
          rw [if_neg hxy, evalExp_keeps hk h1]
          exact ha
      · cases h2
    · cases hf
  | pushVec y k e =>
    intro b a a' s s' fl hf ha h
    simp only [exec] at h; simp only [flow] at hf
    obtain ⟨p, h1, h2⟩ := bind_ok_of h
    split at hf
    · next hk =>
      cases hf
      split at h2
      · next n c hn _ =>
        cases h2
        show Holds _ (p.2.env.set y _ x)
        by_cases hxy : x = y
        · subst hxy
          unfold Env.set
          rw [if_pos rfl]
          rw [evalExp_keeps hk h1] at hn
          intro l hl
          obtain ⟨m, h3, h4⟩ := ha l hl
          rw [hn] at h3
          cases h3
          exact ⟨_, rfl, by rw [pushVec_ty]; exact h4⟩
        · unfold Env.set
          rw [if_neg hxy, evalExp_keeps hk h1]
          exact ha
      · cases h2
    · cases hf
  | append y e =>
    intro b a a' s s' fl hf ha h
    simp only [exec] at h; simp only [flow] at hf
    obtain ⟨p, h1, h2⟩ := bind_ok_of h
    split at hf
    · next hk =>
      rw [Bool.and_eq_true] at hk
      cases hf
      split at h2
      · cases h2
        show Holds _ (p.2.env.set y _ x)
        rw [set_ne hk.2, evalExp_keeps hk.1 h1]
        exact ha
      · cases h2
    · cases hf
  | setType y nt =>
    intro b a a' s s' fl hf ha h
    simp only [exec] at h; simp only [flow] at hf
    split at h
    · next n hn =>
      cases h
      split at hf
      · next hxy =>
        cases hf
        have := Nat.eq_of_beq_eq_true hxy
        subst this
        show Holds _ (s.env.set x _ x)
        unfold Env.set
        rw [if_pos rfl]
        intro l hl
        cases hl
        exact ⟨_, rfl, by simp [setType_ty]⟩
      · next hxy =>
        cases hf
        show Holds _ (s.env.set y _ x)
        rw [set_ne (by rw [Bool.not_eq_true'] ; exact Bool.eq_false_iff.2 hxy)]
        exact ha
    · cases h
  | ite c d e ihd ihe =>
    intro b a a' s s' fl hf ha h
    simp only [exec] at h; simp only [flow] at hf
    split at hf
    · next a1 a2 h1 h2 =>
      cases hf
      split at h
      · have := ihd h1 ha h
        cases fl with
        | norm => exact Holds.left this
        | brk => exact this
        | ret v => exact this
      · have := ihe h2 ha h
        cases fl with
        | norm => exact Holds.right this
        | brk => exact this
        | ret v => exact this
      all_goals cases h
    · cases hf
  | loop c ih =>
    intro b a a' s s' fl hf ha h
    simp only [flow] at hf
    split at hf
    · next hk =>
      have hkeep := keeps_sound (c := .loop c) hk h
      simp only [exec] at h
      split at hf
      · next a1 h1 =>
        cases hf
        generalize C.fuel = n at h
        have key : ∀ (n : Nat) (s1 : St), s1.env x = s.env x → iterate (exec C c) n s1 = .ok (fl, s') →
            (fl = .norm ∨ ∃ v, fl = .ret v ∧ Res S v) := by
          intro n
          induction n with
          | zero => intro s1 _ h; cases h
          | succ n ihn =>
            intro s1 hs h
            simp only [iterate] at h
            split at h
            · next s2 h2 => exact ihn s2 (by rw [keeps_sound hk h2, hs]) h
            · cases h; exact .inl rfl
            · next v s2 h2 =>
              cases h
              exact .inr ⟨v, rfl, ih (fl := .ret v) h1 (by rw [hs]; exact ha) h2⟩
            all_goals cases h
        rcases key n s rfl h with rfl | ⟨v, rfl, hv⟩
        · show Holds _ (s'.env x)
          rw [hkeep]; exact ha
        · exact hv
      · cases hf
    · split at hf
      · next hw =>
        split at hf
        · next a1 h1 =>
          split at hf
          · next hw1 =>
            cases hf
            simp only [exec] at h
            generalize C.fuel = n at h
            have hs := within_sound hw ha
            have toH : ∀ {v}, Res S v → Holds (some S) v := by
              intro v hv l hl; cases hl; exact hv
            have key : ∀ (n : Nat) (s1 : St), Res S (s1.env x) → iterate (exec C c) n s1 = .ok (fl, s') →
                EndOk S x b (some S) fl s' := by
              intro n
              induction n with
              | zero => intro s1 _ h; cases h
              | succ n ihn =>
                intro s1 hs h
                simp only [iterate] at h
                split at h
                · next s2 h2 => exact ihn s2 (within_sound hw1 (ih (fl := .norm) h1 (toH hs) h2)) h
                · next s2 h2 => cases h; exact toH (ih (fl := .brk) h1 (toH hs) h2 rfl)
                · next v s2 h2 =>
                  cases h
                  have := ih (fl := .ret v) h1 (toH hs) h2
                  exact this
                all_goals cases h
            exact key n s hs h
          · cases hf
        · cases hf
      · cases hf
  | ret e =>
    intro b a a' s s' fl hf ha h
    simp only [exec] at h; simp only [flow] at hf
    obtain ⟨p, h1, h2⟩ := bind_ok_of h
    cases h2
    split at hf
    · next hw => exact within_sound hw (expTypes_sound hT ha h1)
    · cases hf
  | scan y lo hi c ih =>
    intro b a a' s s' fl hf ha h
    simp only [flow] at hf
    split at hf
    · next hk =>
      have hkeep := keeps_sound (c := .scan y lo hi c) hk h
      rw [Bool.and_eq_true] at hk
      split at hf
      · next a1 h1 =>
        cases hf
        have key : ∀ (done : St → Out (Flow × St)), (∀ s fl s', done s = .ok (fl, s') → fl = .norm) →
            ∀ (n i : Nat) (s1 : St), s1.env x = s.env x → scanLoop (exec C c) y done n i s1 = .ok (fl, s') →
            (fl = .norm ∨ ∃ v, fl = .ret v ∧ Res S v) := by
          intro done hd n
          induction n with
          | zero => intro i s1 _ h; exact .inl (hd _ _ _ h)
          | succ n ihn =>
            intro i s1 hs h
            simp only [scanLoop] at h
            have hset : ∀ v, (s1.env.set y v) x = s.env x := fun v => by rw [set_ne hk.1, hs]
            split at h
            · next s2 h2 => exact ihn _ s2 (by rw [keeps_sound hk.2 h2]; exact hset _) h
            · cases h; exact .inl rfl
            · next v s2 h2 =>
              cases h
              refine .inr ⟨v, rfl, ih (fl := .ret v) h1 ?_ h2⟩
              show Holds _ (s1.env.set y _ x)
              rw [hset]; exact ha
            all_goals cases h
        have : fl = .norm ∨ ∃ v, fl = .ret v ∧ Res S v := by
          cases hi with
          | none =>
            simp only [exec] at h
            exact key _ (by intro s fl s' h; cases h) _ _ _ rfl h
          | some hi =>
            simp only [exec] at h
            split at h
            · exact key _ (by intro s fl s' h; cases h; rfl) _ _ _ rfl h
            all_goals cases h
        rcases this with rfl | ⟨v, rfl, hv⟩
        · show Holds _ (s'.env x)
          rw [hkeep]; exact ha
        · exact hv
      · cases hf
    · cases hf
  | drain v y c ih =>
    intro b a a' s s' fl hf ha h
    simp only [flow] at hf
    split at hf
    · next hk =>
      have hkeep := keeps_sound (c := .drain v y c) hk h
      simp only [Bool.and_eq_true] at hk
      split at hf
      · next a1 h1 =>
        cases hf
        simp only [exec] at h
        split at h
        · next ns _ =>
          have key : ∀ (l : List Node) (s1 : St), s1.env x = s.env x → drainLoop (exec C c) y l s1 = .ok (fl, s') →
              (fl = .norm ∨ ∃ v, fl = .ret v ∧ Res S v) := by
            intro l
            induction l with
            | nil => intro s1 _ h; simp only [drainLoop] at h; cases h; exact .inl rfl
            | cons m l ihl =>
              intro s1 hs h
              simp only [drainLoop] at h
              have hset : ∀ v, (s1.env.set y v) x = s.env x := fun v => by rw [set_ne hk.1.2, hs]
              split at h
              · next s2 h2 => exact ihl s2 (by rw [keeps_sound hk.2 h2]; exact hset _) h
              · cases h; exact .inl rfl
              · next v s2 h2 =>
                cases h
                refine .inr ⟨v, rfl, ih (fl := .ret v) h1 ?_ h2⟩
                show Holds _ (s1.env.set y _ x)
                rw [hset]; exact ha
              all_goals cases h
          rcases key _ _ (set_ne hk.1.1) h with rfl | ⟨v, rfl, hv⟩
          · show Holds _ (s'.env x)
            rw [hkeep]; exact ha
          · exact hv
        · cases h
      · cases hf
    · cases hf
  | tryElse y f as c ih =>
    intro b a a' s s' fl hf
    simp only [flow] at hf
    cases hf

end Verif.Kind
