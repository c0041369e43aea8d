import Verif.Analysis.OrderFn
/-! Generated by tools/genordercheck.py: the kernel evaluates the analysis on function bodies. -/
namespace Verif.OI

set_option maxRecDepth 100000

theorem check_parse_expr : checkFn .parse_expr = true := by decide +kernel

end Verif.OI
