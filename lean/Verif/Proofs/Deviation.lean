import Verif.Model.Lib
import Verif.Spec.Deviation
import Verif.Proofs.Sample
/-! Deviations of trees from the declarations in types.rs, and their decision procedure. -/
namespace Verif.Dev
open Spec

/-- Decides it. -/
def _root_.Verif.Spec.Deviation.holdsB (m : Node) : Deviation → Bool
  | .node ty k => decide (m.ty = ty) && decide (arrayAt m.kids k = some false)
  | .vec ty k => decide (m.ty = ty) && decide (arrayAt m.kids k = some true)
  | .missing ty k => decide (m.ty = ty) && !(children m.kids).any fun e => decide (e.1 = k)
  | .child ty k => decide (m.ty = ty) &&
      (childTypes ty).any fun e => decide (e.1 = k) && (childrenAt m k).any fun c => !decide (c.ty ∈ e.2)

theorem _root_.Verif.Spec.Deviation.holdsB_sound {m : Node} {d : Deviation} (h : d.holdsB m = true) : d.Holds m := by
  cases d with
  | node ty k => simpa [Deviation.holdsB, Deviation.Holds] using h
  | vec ty k => simpa [Deviation.holdsB, Deviation.Holds] using h
  | missing ty k =>
    simp only [Deviation.holdsB, Bool.and_eq_true, decide_eq_true_eq, Bool.not_eq_true', List.any_eq_false] at h
    exact ⟨h.1, fun ⟨e, he, hk⟩ => h.2 e he hk⟩
  | child ty k => simpa [Deviation.holdsB, Deviation.Holds] using h

/-- Some node shows the deviation. -/
def anyB (d : Deviation) (ms : List Node) : Bool := ms.any fun m => d.holdsB m

/-- The input is accepted and the trees show the deviations. -/
def shows (w : String × List Deviation) : Bool :=
  match parse Unicode.sample w.1.toList with
  | .ok ns => w.2.all fun d => anyB d (ns.flatMap nodes)
  | _ => false

theorem shows_sound {w : String × List Deviation} (h : shows w = true) :
    ∃ ns, parse Unicode.sample w.1.toList = .ok ns ∧
      ∀ d ∈ w.2, ∃ n ∈ ns, ∃ m ∈ nodes n, d.Holds m := by
  unfold shows at h
  split at h
  · next ns hns =>
    refine ⟨ns, hns, ?_⟩
    intro d hd
    have := List.all_eq_true.1 h d hd
    unfold anyB at this
    obtain ⟨m, hm, hh⟩ := List.any_eq_true.1 this
    obtain ⟨n, hn, hmn⟩ := List.mem_flatMap.1 hm
    exact ⟨n, hn, m, hmn, Deviation.holdsB_sound hh⟩
  · cases h

end Verif.Dev
