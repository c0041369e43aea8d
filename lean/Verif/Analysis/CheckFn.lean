import Verif.Analysis.Table
/-! The check of one function, as a computation. -/
namespace Verif.AI

/-- All entries of a function pass the check. -/
def checkFn (f : Fn) : Bool := (Table.table f).all (checkEntry Table.table Program.defs f)

theorem checkFn_iff {f : Fn} (h : checkFn f = true) :
    ∀ e ∈ Table.table f, checkEntry Table.table Program.defs f e = true := by
  unfold checkFn at h
  generalize Table.table f = l at h ⊢
  exact List.all_eq_true.1 h

end Verif.AI
