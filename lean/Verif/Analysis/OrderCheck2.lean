import Verif.Analysis.OrderFn
/-! Generated by tools/genordercheck.py: the kernel evaluates the analysis on function bodies. -/
namespace Verif.OI

set_option maxRecDepth 100000

theorem check_parse_statement : checkFn .parse_statement = true := by decide +kernel

end Verif.OI
