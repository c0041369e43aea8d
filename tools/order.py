#!/usr/bin/env python3
"""Generates the tables for the analysis of the order of tokens (Verif.Analysis.Order).
1. runs the analysis without rules, printing every pair of sets of slots whose order it relies on;
2. writes lean/Verif/Spec/SourceOrder.lean (the order of the slots of each node type) and
   lean/Verif/Analysis/OrderRules.lean (the same as bit masks, with more pairs);
3. runs the analysis again with these rules and writes lean/Verif/Analysis/OrderTable.lean.
Nothing here is trusted: the kernel checks the tables (Verif.Analysis.OrderCheck)."""
import re, collections, subprocess, os
L = '/verif/lean'
W = '/tmp/scratch/ordgen'
os.makedirs(W, exist_ok=True)
gen = open('/verif/tools/GenOrder.lean.txt').read()
head = 'import Verif.Analysis.Order\nimport Verif.Model.Program\n'
assert gen.startswith(head)
body = gen[len(head):]
subprocess.run(['lake', 'build', 'Verif.Analysis.Order'], cwd=L, check=True, stdout=subprocess.DEVNULL)
s = open(L + '/Verif/Analysis/Order.lean').read()
for a, b in [("    | some m' => if crossOk ru t m m' then", "    | some m' => if (dbgTrace s!\"ORD {reprStr t} {m} {m'}\" fun _ => crossOk ru t m m') then"),
             ("  | (t, m) :: r => if convOk ru t nt m then", "  | (t, m) :: r => if (dbgTrace s!\"CONV {reprStr t} {reprStr nt} {m}\" fun _ => convOk ru t nt m) then")]:
    assert s.count(a) == 1, a
    s = s.replace(a, b)
open(W + '/A.lean', 'w').write('import Verif.Model.Program\n' + s + '\n' + body + '\ndef main : IO Unit := gen (fun _ => []) false\n')
r = subprocess.run(['lake', 'env', 'lean', '--run', W + '/A.lean'], cwd=L, capture_output=True, text=True)
print(r.stdout[-300:])
src = open(L + '/Verif/Model/Names.lean').read()
keys = re.findall(r'\|\s*k_(\w+)', re.search(r'inductive Key\b(.*?)deriving', src, re.S).group(1))
types = re.findall(r'\|\s*(\w+)', re.search(r'inductive NodeType\b(.*?)deriving', src, re.S).group(1))
def slots(n):
    n = int(n)
    return [k for i, k in enumerate(keys) if n >> i & 1] + (['SELF'] if n >> 255 & 1 else [])
tok = ['leading_comments', 'SELF', 'trailing_comments']
before = collections.defaultdict(set); seen = collections.defaultdict(set); conv = set()
for l in set(r.stderr.split('\n')):
    p = l.split()
    if not p: continue
    if p[0] == 'ORD':
        t = p[1].split('.')[-1]; A = slots(p[2]); B = slots(p[3]); seen[t] |= set(A) | set(B)
        before[t] |= {(a, b) for a in A for b in B if a != b}
    elif p[0] == 'CONV':
        conv.add((p[1].split('.')[-1], p[2].split('.')[-1], tuple(slots(p[3]))))
for t in types:
    for i in range(3):
        for j in range(i + 1, 3): before[t].add((tok[i], tok[j]))
    seen[t] |= set(tok)
# declared children that the parser never produces come last
open(W + '/C.lean', 'w').write('''import Verif.Spec.Schema
import Verif.Spec.Deviation
open Verif Verif.Spec
def main : IO Unit := for t in NodeType.all do
  for e in declared t ++ undeclared t do IO.println s!"{reprStr t} {reprStr e.1}"
''')
r2 = subprocess.run(['lake', 'env', 'lean', '--run', W + '/C.lean'], cwd=L, capture_output=True, text=True, check=True)
declared = collections.defaultdict(set)
for l in r2.stdout.split('\n'):
    if l: a, b = l.split(); declared[a.split('.')[-1]].add(b.split('.')[-1][2:])
ch = True
while ch:
    ch = False
    for (t, nt, m) in conv:
        m = set(m)
        n = {(a, b) for (a, b) in before[t] if a in m and b in m} - before[nt]
        if n: before[nt] |= n; ch = True
        if not m <= seen[nt]: seen[nt] |= m; ch = True
idx = lambda k: 255 if k == 'SELF' else keys.index(k)
sl = lambda k: '.token' if k == 'SELF' else f'.child .k_{k}'
spec, swap, rules = [], [], []
for t in types:
    B = before[t]
    amb = sorted({tuple(sorted(p, key=idx)) for p in B if (p[1], p[0]) in B})
    strict = {p for p in B if (p[1], p[0]) not in B}
    extra = declared[t] - seen[t]
    S = sorted(seen[t], key=idx) + sorted(extra, key=idx); order = []; rem = set(seen[t])
    while rem:
        c = [x for x in S if x in rem and not any((y, x) in strict for y in rem)]
        assert c, (t, 'cycle')
        order.append(c[0]); rem.discard(c[0])
    order += S[len(order):]
    if order != tok: spec.append((f'  | .{t} => [', list(map(sl, order))))
    if amb: swap.append((f'  | .{t} => [', [f'({sl(a)}, {sl(b)})' for a, b in amb]))
    ru = []
    for a in order:
        m = sum(1 << idx(b) for b in order if b != a and (b, a) not in B)
        if m: ru.append((idx(a), m))
    rules.append((f'  | .{t} => [', [f'({a}, {m})' for a, m in ru]))
def fill(ls):
    out = []
    for h, items in ls:
        cur = h
        for i, w in enumerate(items):
            w += ', ' if i + 1 < len(items) else ']'
            if len(cur) + len(w) > 110:
                out.append(cur.rstrip()); cur = '      '
            cur += w
        out.append(cur)
    return '\n'.join(out)
open(L + '/Verif/Spec/SourceOrder.lean', 'w').write('''import Verif.Spec.Tree
/-! Generated by tools/order.py: the order in which the parts of a node stand in the source.  These lists
are part of the specification. -/
namespace Verif.Spec

/-- A part of a node: its own token, or what is stored under a key. -/
inductive Slot
  | token
  | child (k : Key)
  deriving DecidableEq, Repr

/-- For each node type its parts in the order of the source. -/
def sourceOrder : NodeType → List Slot
''' + fill(spec) + '''
  | _ => [.child .k_leading_comments, .token, .child .k_trailing_comments]

/-- Parts whose order is not fixed: `NOT LIKE` and `IS NOT`, `ASC AS b` and `AS b ASC`, clauses that may
come in either order. -/
def swappable : NodeType → List (Slot × Slot)
''' + fill(swap) + '''
  | _ => []

end Verif.Spec
''')
open(L + '/Verif/Analysis/OrderRules.lean', 'w').write('''import Verif.Analysis.Order
/-! Generated by tools/order.py: for each node type and slot, the slots that do not come before it, as a
bit mask.  Includes `Spec.sourceOrder` (checked in Verif.Analysis.OrderCheck). -/
namespace Verif.OI

/-- The rules. -/
def rules : Rules
''' + fill(rules) + '\n\nend Verif.OI\n')
subprocess.run(['lake', 'build', 'Verif.Analysis.OrderRules', 'Verif.Spec.SourceOrder'], cwd=L, check=True)
open(W + '/B.lean', 'w').write('import Verif.Analysis.OrderRules\nimport Verif.Model.Program\n' + body + '\ndef main : IO Unit := gen rules true\n')
r = subprocess.run(['lake', 'env', 'lean', '--run', W + '/B.lean'], cwd=L, capture_output=True, text=True)
print(r.stdout[-2000:], r.stderr[-2000:])
