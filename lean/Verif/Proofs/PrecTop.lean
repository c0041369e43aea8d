import Verif.Proofs.PrecCmd
import Verif.Model.Lib
/-! What the precedence analysis says about `parse_code`. -/
namespace Verif.PI
open Core Spec Interp

variable {U : Unicode} {toks : List Token}

/-- The check of every function, computed by the kernel. -/
theorem all_checked : ∀ f ∈ Fn.all, checkFun summary Program.defs f = true := by decide +kernel

theorem call_spec (fuel depth : Nat) : CallSpec U toks summary (call U toks fuel depth) :=
  callN_sound (fun f => all_checked f (mem_fn_all f)) depth

theorem loop_good {fuel depth : Nat} : ∀ (n : Nat) {ps : PS} {acc ns : List Node},
    (∀ n ∈ acc, Good U n) → parseLoop U toks fuel depth n ps acc = .ok ns → ∀ n ∈ ns, Good U n := by
  intro n
  induction n with
  | zero => intro ps acc ns _ h; cases h
  | succ n ih =>
    intro ps acc ns hacc h
    unfold parseLoop at h
    split at h
    · obtain ⟨m, hm, h⟩ := bind_ok h
      cases h
      intro x hx
      rcases List.mem_append.1 hx with hx | hx
      · exact hacc x hx
      · rw [List.mem_singleton.1 hx]
        obtain ⟨_, _, hg, _⟩ := construct_prec hm
        exact hg
    · split at h
      · next m ps' hc =>
        have hg := (call_spec fuel depth .parse_statement [.bool true] ps _ ps' trivial
          (by intro x hx; rw [List.mem_singleton.1 hx]; trivial) hc).1
        split at h
        · refine ih ?_ h
          intro x hx
          rcases List.mem_append.1 hx with hx | hx
          · exact hacc x hx
          · rw [List.mem_singleton.1 hx]; exact hg
        · cases h
        · cases h
        · cases h
      · cases h
      · cases h
      · cases h
      · cases h

theorem parse_good {code : Str} {ns : List Node} (h : parse U code = .ok ns) : ∀ n ∈ ns, Good U n := by
  unfold parse at h
  obtain ⟨toks, _, h⟩ := bind_ok h
  unfold parseTokens parseTokensWith at h
  obtain ⟨ps, _, h⟩ := bind_ok h
  exact loop_good _ (by simp) h

end Verif.PI
