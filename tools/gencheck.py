#!/usr/bin/env python3
"""Writes lean/Verif/Analysis/Check*.lean: one kernel evaluation of the analysis per function."""
import re, os
root = os.path.join(os.path.dirname(os.path.abspath(__file__)), "..", "lean", "Verif")
src = open(os.path.join(root, "Model", "Names.lean")).read()
body = src[src.index("inductive Fn"):]
body = body[:body.index("deriving")]
fns = re.findall(r"\| (\w+)", body)
groups = {1: ["parse_expr"], 2: ["parse_statement"], 3: [], 4: []}
rest = [f for f in fns if f not in ("parse_expr", "parse_statement")]
for i, f in enumerate(rest):
    groups[3 + i % 2].append(f)
for g, fs in groups.items():
    out = ["import Verif.Analysis.CheckFn",
           "/-! Generated by tools/gencheck.py: the kernel evaluates the analysis on function bodies. -/",
           "namespace Verif.AI", "", "set_option maxRecDepth 100000", ""]
    for f in fs:
        out += [f"theorem check_{f} : checkFn .{f} = true := by decide +kernel", ""]
    out += ["end Verif.AI", ""]
    open(os.path.join(root, "Analysis", f"Check{g}.lean"), "w").write("\n".join(out))
out = [f"import Verif.Analysis.Check{g}" for g in groups]
out += ["/-! Generated by tools/gencheck.py: the table of summaries has been checked completely. -/",
        "namespace Verif.AI", "",
        "/-- Every summary in the table is confirmed by the analysis. -/",
        "theorem all_checked : ∀ f, checkFn f = true := by",
        "  intro f", "  cases f"]
for f in fns:
    out.append(f"  · exact check_{f}")
out += ["",
        "theorem table_checked : ∀ f, ∀ e ∈ Table.table f, checkEntry Table.table Program.defs f e = true :=",
        "  fun f => checkFn_iff (all_checked f)",
        "", "end Verif.AI", ""]
open(os.path.join(root, "Analysis", "Check.lean"), "w").write("\n".join(out))
print(len(fns))
