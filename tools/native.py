#!/usr/bin/env python3
"""Compiles a scratch program that imports modules of lean/Verif (for the untrusted generators only).
usage: native.py MAIN.lean OUT [MODULE=FILE.lean]   (a module can be replaced by another source)"""
import os, re, subprocess, sys
main, out = os.path.abspath(sys.argv[1]), os.path.abspath(sys.argv[2])
lean = os.path.join(os.path.dirname(os.path.abspath(__file__)), "..", "lean")
os.chdir(lean)
odir = os.environ.get("NATIVE", "/tmp/scratch/native")
os.makedirs(odir, exist_ok=True)
mods, todo = [], [main]
def imports(f):
    return re.findall(r"^import (Verif\.\S+)", open(f).read(), re.M)
seen = set()
def visit(m):
    if m in seen: return
    seen.add(m)
    for i in imports(m.replace(".", "/") + ".lean"): visit(i)
    mods.append(m)
for m in imports(main): visit(m)
objs = []
repl = dict(a.split("=") for a in sys.argv[3:])
def run(cmd):
    r = subprocess.run(cmd, capture_output=True, text=True)
    if r.returncode: sys.exit(" ".join(cmd) + "\n" + r.stdout + r.stderr)
for m in mods:
    if m in repl:
        d = os.path.join(odir, "repl", m.replace(".", "/"))
        os.makedirs(os.path.dirname(d), exist_ok=True)
        open(d + ".lean", "w").write(open(repl[m]).read())
        run(["lake", "env", "lean", "--root=" + os.path.join(odir, "repl"), "-c", d + ".c", d + ".lean"])
        c = open(d + ".c").read().replace("l_Verif_", "lp_verif_Verif_").replace("initialize_Verif_", "initialize_verif_Verif_")
        open(d + ".c", "w").write(c)
        run(["leanc", "-O1", "-c", d + ".c", "-o", d + ".o"])
        objs.append(d + ".o")
        continue
    c = ".lake/build/ir/" + m.replace(".", "/") + ".c"
    o = os.path.join(odir, m + ".o")
    if not os.path.exists(o) or os.path.getmtime(o) < os.path.getmtime(c):
        run(["leanc", "-O1", "-c", c, "-o", o])
    objs.append(o)
mc = out + ".c"
run(["lake", "env", "lean", "--root=" + os.path.dirname(main), "-c", mc, main])
run(["leanc", "-O1", "-c", mc, "-o", out + ".o"])
# initialisers of the few imported Mathlib modules, which define nothing the programs need
stubs = sorted({i for m in mods for i in re.findall(r"\b(initialize_mathlib_\w+)\(", open(".lake/build/ir/" + m.replace(".", "/") + ".c").read())})
with open(out + "_stubs.c", "w") as f:
    f.write("#include <lean/lean.h>\n" + "".join(f"LEAN_EXPORT lean_object* {i}(uint8_t b) {{ return lean_io_result_mk_ok(lean_box(0)); }}\n" for i in stubs))
run(["leanc", "-O1", "-c", out + "_stubs.c", "-o", out + "_stubs.o"])
run(["leanc", out + ".o", out + "_stubs.o", *objs, "-o", out])
