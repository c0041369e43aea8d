#!/usr/bin/env python3
"""Analysis/AcceptTable.lean -> Analysis/AcceptCheck*.lean: one kernel computation per summary."""
import re, sys, os
N = int(sys.argv[1]) if len(sys.argv) > 1 else 4
here = os.path.dirname(os.path.abspath(__file__))
d = os.path.join(here, '..', 'lean', 'Verif', 'Analysis')
s = open(os.path.join(d, 'AcceptTable.lean')).read()
tab = {}
for m in re.finditer(r'^  \| \.(\w+) => \[([^\]]*)\]', s[s.index('def acceptTab'):], re.M):
    tab[m[1]] = [x.strip() for x in m[2].split(',')]
allE = [(f, e) for f, es in tab.items() for e in es]
# times of an earlier run, if any, to balance the modules
times = {}
tf = '/tmp/scratch/accepttimes.txt'
if os.path.exists(tf):
    for l in open(tf):
        e, t = l.split(); times[e] = float(t)
load = [0.0] * N
mods = [[] for _ in range(N)]
for f, e in sorted(allE, key=lambda x: -times.get(x[1], 1.0)):
    i = load.index(min(load))
    mods[i].append((f, e)); load[i] += times.get(e, 1.0)
for f in os.listdir(d):
    if re.match(r'AcceptCheck\d*\.lean$', f): os.remove(os.path.join(d, f))
for i, m in enumerate(mods):
    o = ["import Verif.Analysis.AcceptTable", "import Verif.Model.Program",
         "/-! Generated by tools/genacceptcheck.py: the kernel checks the summaries of Verif.Analysis.AcceptTable. -/",
         "set_option maxRecDepth 100000", "namespace Verif.GI", ""]
    for f, e in sorted(m, key=lambda x: int(x[1][1:])):
        o.append(f"theorem check_{e} : checkEntry tables acceptTab (Program.defs .{f}) {e} = true := by decide +kernel")
    o += ["", "end Verif.GI", ""]
    open(os.path.join(d, f'AcceptCheck{i+1}.lean'), 'w').write("\n".join(o))
o = [f"import Verif.Analysis.AcceptCheck{i+1}" for i in range(N)]
o += ["import Verif.Proofs.AcceptTop",
      "/-! Generated by tools/genacceptcheck.py: all summaries are right. -/",
      "set_option maxRecDepth 100000", "namespace Verif.GI", "open AI", "",
      "theorem tables_ok : tablesOk tables = true := by decide +kernel", "",
      "theorem check_all : ∀ f, ∀ e ∈ acceptTab f, checkEntry tables acceptTab (Program.defs f) e = true := by",
      "  intro f e he",
      "  cases f"]
for f, es in tab.items():
    o.append(f"  case {f} =>")
    o.append("    simp only [acceptTab, List.mem_cons, List.not_mem_nil, or_false] at he")
    if len(es) == 1:
        o.append(f"    subst he; exact check_{es[0]}")
    else:
        o.append("    rcases he with " + " | ".join(["rfl"] * len(es)))
        for e in es: o.append(f"    · exact check_{e}")
o += ["  all_goals simp only [acceptTab, List.not_mem_nil] at he", "",
      "/-- The summaries of `parse_statement` are those a script needs. -/",
      "def topOk : TopOk tables acceptTab where",
      "  last := e0", "  more := e1",
      "  last_mem := by simp [acceptTab]", "  more_mem := by simp [acceptTab]",
      "  last_args := rfl", "  more_args := rfl", "  last_pre := rfl", "  more_pre := by decide_more" if False else "  more_pre := rfl",
      "  last_follow := by decide +kernel", "  more_follow := by decide +kernel",
      "  last_post := rfl", "  more_post := rfl", "  nonnull := rfl", "  nonnull' := rfl", "",
      "/-- The summary of `parse_statement` for complete statements. -/",
      "def plainOk : PlainOk tables acceptTab where",
      "  e := e2", "  mem := by simp [acceptTab]",
      "  args := rfl", "  pre := rfl", "  follow := rfl", "  post := rfl", "",
      "end Verif.GI", ""]
open(os.path.join(d, 'AcceptCheck.lean'), 'w').write("\n".join(o))
print(len(allE), 'entries', [round(x, 1) for x in load])
