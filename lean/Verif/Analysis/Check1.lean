import Verif.Analysis.CheckFn
/-! Generated by tools/gencheck.py: the kernel evaluates the analysis on function bodies. -/
namespace Verif.AI

set_option maxRecDepth 100000

theorem check_parse_expr : checkFn .parse_expr = true := by decide +kernel

end Verif.AI
