import Verif.Proofs.SoundCmd
/-! Soundness of the table of function summaries. -/
namespace Verif.AI
open Core Spec Interp

variable {U : Unicode} {toks : List Token} {w : Token → Nat} {z : Bool}

theorem bindArgs_sound {xs : List Var} {as : List AVal} {vs : List Val} {vars : List (Var × AVal)}
    (hb : bindArgs xs as = some vars) (h : List.Forall₂ (Γ U toks) as vs) :
    (∀ p ∈ vars, Γ U toks p.2 (bindParams xs vs p.1)) ∧ (vars.map Prod.fst).Nodup ∧
      (owned vars (bindParams xs vs)).Perm (owns vs) := by
  induction xs generalizing as vs vars with
  | nil =>
    cases as with
    | nil =>
      simp only [bindArgs, Option.some.injEq] at hb
      subst hb
      cases h
      exact ⟨by simp, by simp, .refl _⟩
    | cons => simp [bindArgs] at hb
  | cons x xs ih =>
    cases h with
    | nil => simp [bindArgs] at hb
    | @cons a v as vs ha h =>
      simp only [bindArgs] at hb
      split at hb
      · cases hb
      · next r hr =>
        split at hb
        · cases hb
        · next ht =>
          cases hb
          obtain ⟨h1, h2, h3⟩ := ih hr h
          have hx := take_none ht
          have hp := insertVar_perm x a r
          refine ⟨?_, ?_, ?_⟩
          · intro p hpm
            simp only [bindParams]
            rcases List.mem_cons.1 (hp.mem_iff.1 hpm) with rfl | hpm
            · rw [env_set_same]; exact ha
            · have hne : p.1 ≠ x := fun h => hx (h ▸ List.mem_map_of_mem hpm)
              rw [env_set_ne _ _ hne]
              exact h1 p hpm
          · refine (hp.map Prod.fst).nodup_iff.2 ?_
            simp only [List.map_cons, List.nodup_cons]
            exact ⟨hx, h2⟩
          · simp only [bindParams]
            refine (owned_perm hp _).trans ?_
            rw [owned_cons, owned_set hx, owns_cons]
            dsimp only
            rw [env_set_same]
            exact h3.append_left _

/-- If every entry of the table passes the check, every entry is right about the program. -/
theorem callN_sound (hU : U.Lawful) (hends : Ends toks) (hz : Ignores z w) {T : Fn → List Entry}
    {defs : Fn → FunDef} {fuel : Nat} (hT : ∀ f, ∀ e ∈ T f, checkEntry T defs f e = true) :
    ∀ n, CallSpec U w z toks T (callN U defs toks fuel n) := by
  intro n
  induction n with
  | zero => intro f e he vs ps _ _ _; trivial
  | succ n ih =>
    intro f e he vs ps hvs hps hm
    have hc := hT f e he
    unfold checkEntry at hc
    split at hc
    · cases hc
    · next o ho =>
      simp only [Bool.and_eq_true, List.isEmpty_iff] at hc
      obtain ⟨⟨hn, hb⟩, hr⟩ := hc
      unfold runEntry at ho
      split at ho
      · cases ho
      · next vars hvars =>
        obtain ⟨h1, h2, h3⟩ := bindArgs_sound hvars hvs
        have hgs : GS U toks ⟨if e.used then .cov else .unc, e.t0, e.t1, vars⟩
            ⟨ps, bindParams (defs f).params vs⟩ := by
          refine ⟨hps, hm, h1, h2, ?_⟩
          intro x hx
          dsimp only at hx
          split at hx <;> cases hx
        have := exec_sound hU hends hz (fuel := fuel) ih _ _ _ ho _ hgs
        have hstart : startOf toks e ps = endOf toks (if e.used then .cov else .unc) ps := by
          unfold startOf endOf
          cases e.used <;> rfl
        simp only [callN, runBody]
        rcases hx : exec ⟨U, toks, fuel, callN U defs toks fuel n⟩ (defs f).body
          ⟨ps, bindParams (defs f).params vs⟩ with ⟨_ | _ | _, s'⟩ | _ | _ | _ <;> rw [hx] at this <;> dsimp only
        · obtain ⟨b, hb', _⟩ := this
          rw [hn] at hb'
          simp at hb'
        · obtain ⟨b, hb', _⟩ := this
          rw [hb] at hb'
          simp at hb'
        · obtain ⟨r, hr', g1, g2, g3, g4⟩ := this
          have := List.all_eq_true.1 hr r hr'
          simp only [Bool.and_eq_true] at this
          refine ⟨g2, g1.mono this.1.1, g3.mono this.1.2 this.2, ?_⟩
          rw [hstart]
          exact (Step.perm h3.symm _).trans g4
        · trivial
        · exact this
        · trivial

end Verif.AI
