#!/usr/bin/env python3
"""Writes lean/Verif/Proofs/Witness*.lean from tools/witnesses.txt: for every deviation of the trees from the
declarations in types.rs an input on which it happens, evaluated by the kernel."""
import json, os
here = os.path.dirname(os.path.abspath(__file__))
out = os.path.join(here, "..", "lean", "Verif", "Proofs")
ws = [json.loads(l) for l in open(os.path.join(here, "witnesses.txt"))]
N = 3
groups = [ws[i::N] for i in range(N)]
for i, g in enumerate(groups, 1):
    o = ["import Verif.Proofs.Deviation",
         "/-! Generated by tools/witnesses.py: inputs on which the trees deviate from the declarations. -/",
         "namespace Verif.Dev", "open Spec", "", "set_option maxRecDepth 100000", ""]
    names = []
    for j, (sql, ds) in enumerate(g):
        n = f"w{i}_{j}"
        names.append(n)
        devs = ", ".join(f".{kind} .{ty} .{k}" for ty, k, kind in (d.split() for d in ds))
        o += [f"def {n} : String × List Deviation := ({json.dumps(sql)},", f"  [{devs}])",
              f"theorem {n}_ok : shows {n} = true := by decide +kernel", ""]
    o += [f"/-- All witnesses of this file. -/", f"def witnesses{i} : List (String × List Deviation) := [",
          "  " + ",\n  ".join(names) + "]", "",
          f"theorem witnesses{i}_ok : ∀ w ∈ witnesses{i}, shows w = true := by",
          f"  simp only [witnesses{i}, List.forall_mem_cons]",
          "  exact ⟨" + ", ".join(n + "_ok" for n in names) + ", by simp⟩", "", "end Verif.Dev", ""]
    open(os.path.join(out, f"Witness{i}.lean"), "w").write("\n".join(o))
