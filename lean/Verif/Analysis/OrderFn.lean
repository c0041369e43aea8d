import Verif.Analysis.OrderRules
import Verif.Analysis.OrderTable
import Verif.Model.Program
/-! The check of one function, as a computation. -/
namespace Verif.OI

/-- All entries of a function pass the check. -/
def checkFn (f : Fn) : Bool := (Table.table f).all (checkEntry rules Table.table (Program.defs f))

theorem checkFn_iff {f : Fn} (h : checkFn f = true) :
    ∀ e ∈ Table.table f, checkEntry rules Table.table (Program.defs f) e = true := by
  unfold checkFn at h
  generalize Table.table f = l at h ⊢
  exact List.all_eq_true.1 h

end Verif.OI
