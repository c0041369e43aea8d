#!/usr/bin/env python3
"""Rewrites the examples of lean/Verif/Props/Accept.lean (between the marks) with derivations found by
tools/derive.py; each line of tools/acceptex.sql is a script."""
import os, re, subprocess
here = os.path.dirname(os.path.abspath(__file__))
scripts = [l for l in open(os.path.join(here, 'acceptex.sql')).read().split('\n') if l.strip()]
def run(start, l):
    o = subprocess.run(['python3', os.path.join(here, 'derive.py'), start], input=l, capture_output=True, text=True).stdout
    i = o.rindex('[')
    assert 'None' not in o, o
    return eval(o[:i].strip()), eval(o[i:])
def lits(ts):
    return "[" + ", ".join('"' + t + '".toList' for t in ts) + "]"
def wrap(cs):
    s = ", ".join(map(str, cs)); out = []
    while len(s) > 110:
        c = s.rindex(' ', 0, 110); out.append(s[:c]); s = s[c + 1:]
    return "\n    ".join(out + [s])
o = []
for k, l in enumerate(scripts):
    ts, cs = run('Step', l)
    assert '"' not in l
    o += [f"theorem script{k}_tokens : tokenize Unicode.sample \"{l};\".toList = .ok (toksOf \"{l};\") :=",
          "  toksOf_eq (by decide +kernel)", "",
          f"theorem script{k}_step : Derives [.nt .Step]", "    " + lits(ts) + " :=",
          f"  GI.derivB_sound (n := 1000) (cs := [{wrap(cs)}]) (by decide +kernel)", "",
          f"theorem script{k}_sig : significant (toksOf \"{l};\") =", "    " + lits(ts + [';']) + " := by", "  decide +kernel", "",
          f"theorem script{k}_apart : WordsApart (toksOf \"{l};\") := GI.apartB_sound (by decide +kernel)", "",
          f"/-- The hypotheses of C37 are met, so the script is accepted. -/",
          f"example : ∃ stmts eof, parse Unicode.sample \"{l};\".toList = .ok (stmts ++ [eof]) ∧ stmts.length = 1 := by",
          f"  refine C37_accepts _ Unicode.sample_lawful _ _ _ script{k}_tokens script{k}_apart ?_",
          f"  rw [script{k}_sig]",
          f"  exact .cons script{k}_step .nil", ""]
p = os.path.join(here, '..', 'lean', 'Verif', 'Props', 'Accept.lean')
s = open(p).read()
a = s.index("/-! ## Examples"); b = s.index("/-- Does `parse` report an error")
a = s.index("-/\n", a) + 3
open(p, 'w').write(s[:a] + "\n" + "\n".join(o) + "\n" + s[b:])
