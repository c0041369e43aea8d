"""Generate lean/Verif/Spec/Schema.lean from the TypeScript declarations in /repo/src/types.rs."""
import re, os
src = open('/repo/src/types.rs').read()
ts = src[src.index('r#"') + 3: src.rindex('"#;')]
line0 = src[:src.index('r#"')].count('\n') + 1
def strip(s): return re.sub(r'//[^\n]*', lambda m: ' ' * len(m.group(0)), s)
ts = strip(ts)
decl = {}
for m in re.finditer(r'(?:export type (\w+) =|interface (\w+))', ts):
    name = m.group(1) or m.group(2)
    # body: up to the closing at brace depth 0
    i = m.end(); depth = 0
    while True:
        c = ts[i]
        if c == '{': depth += 1
        if c == '}':
            depth -= 1
            if depth == 0:
                # intersection may continue with &
                j = i + 1
                while ts[j] in ' \n': j += 1
                if ts[j] == '&': i = j; continue
                i += 1; break
        if c == ';' and depth == 0: break
        i += 1
    decl[name] = (ts[m.end():i], line0 + ts[:m.start()].count('\n'), line0 + ts[:i].count('\n'))
def split_top(s, seps):
    out, d, cur = [], 0, ''
    for c in s:
        if c in '{[(': d += 1
        if c in '}])': d -= 1
        if d == 0 and c in seps: out.append(cur); cur = ''
        else: cur += c
    out.append(cur)
    return [x.strip() for x in out if x.strip()]
def fields(obj):
    obj = obj.strip(); assert obj[0] == '{' and obj[-1] == '}', obj
    r = {}
    for f in split_top(obj[1:-1], ';\n'):
        k, v = f.split(':', 1)
        r[k.strip()] = v.strip()
    return r
def node_type(name):
    m = re.search(r'node_type: "(\w+)"', decl[name][0]) if name in decl else None
    return m.group(1) if m else None
def child_types(v):
    """The node types of `{ Node: A | B }` / `{ NodeVec: (A | B)[] }`, or None if not a union of node types."""
    m = re.match(r'\{ (?:Node|NodeVec): (.*?) \}$', v)
    if not m: return None
    ts = [x.strip(' ()[]') for x in m.group(1).split('|')]
    if any('&' in t or node_type(t) is None for t in ts): return None
    return sorted(node_type(t) for t in ts)
ctypes = {}
def note(name, k, v):
    t = child_types(v)
    if t is not None:
        d = ctypes.setdefault(name, {})
        d[k] = [x for x in d[k] if x in t] if k in d else t
def inherit(name, frm):
    for k, t in ctypes.get(frm, {}).items():
        d = ctypes.setdefault(name, {})
        d[k] = [x for x in d[k] if x in t] if k in d else list(t)
def keys_of(name):
    body = decl[name][0]
    out = {}; undef = set(); nt = None
    for part in split_top(body, '&'):
        if part[0] == '{':
            fs = fields(part)
            if 'node_type' in fs and fs['node_type'].startswith('"'): nt = fs['node_type'].strip('"')
            ch = fs.get('children')
            if ch is None: continue
            mm = re.match(r'(\w+)\["children"\]', ch)
            if mm:
                # the `children` field of another declaration, base node included
                o, u, _ = keys_of(mm.group(1)); inherit(name, mm.group(1)); out.update(o); undef |= u; continue
            for k, v in fields(ch).items():
                opt = k.endswith('?'); k = k.rstrip('?')
                if v == 'undefined': undef.add(k); continue
                note(name, k, v)
                kind = 'vec' if (v == 'NodeVecChild' or 'NodeVec:' in v) else 'node'
                assert kind == 'vec' or v == 'NodeChild' or 'Node:' in v, v
                assert k not in out or out[k][0] == kind, (name, k)
                out[k] = (kind, opt and (k not in out or out[k][1]))
        else:
            o, u, _ = keys_of(part); inherit(name, part)
            for k, (kind, opt) in o.items():
                assert k not in out or out[k][0] == kind
                out[k] = (kind, opt and (k not in out or out[k][1]))
            undef |= u
    return out, undef, nt
names = open('/verif/lean/Verif/Model/Names.lean').read()
nts = re.search(r'def NodeType.all : List NodeType := \[(.*?)\]', names).group(1).replace('.', '').split(', ')
kall = re.search(r'def Key.all : List Key := \[(.*?)\]', names).group(1).replace('.', '').split(', ')
union = [x.strip(' |;\n') for x in decl['UnknownNode'][0].split('|') if x.strip(' |;\n')]
tbl = {}
ctbl = {}
unknown_keys = set()
for u in union:
    o, un, nt = keys_of(u)
    ks = {k: v for k, v in o.items() if k not in un}
    for k in list(ks):
        if 'k_' + k not in kall: unknown_keys.add((u, k, 'optional' if ks[k][1] else 'MANDATORY')); del ks[k]
    tbl[nt] = (ks, decl[u][1], decl[u][2])
    ctbl[nt] = {k: t for k, t in ctypes.get(u, {}).items() if k in ks}
print('declared but never produced keys:', unknown_keys)
print('node types without declaration:', [n for n in nts if n not in tbl])
def wrap(xs):
    out, cur = [], '   '
    for x in xs:
        if len(cur) + len(x) > 98: out.append(cur.rstrip()); cur = '   '
        cur += ' ' + x + ','
    out.append(cur.rstrip().rstrip(','))
    return '\n'.join(out)
L = ['import Verif.Model.Names',
 '/-! Generated by tools/schema.py from the TypeScript declarations in /repo/src/types.rs. -/',
 'namespace Verif.Spec', '',
 '/-- How a child is declared: `Node` or `NodeVec`. -/',
 'inductive Kind', '  | node | vec', '  deriving DecidableEq, Repr', '',
 '/-- The children declared for each `node_type`: all keys of the intersected object types, without those',
 'declared `undefined`.  A type with no declaration (`Unknown`) has none. -/',
 'def declared : NodeType → List (Key × Kind)']
for n in nts:
    if n not in tbl: continue
    ks, a, b = tbl[n]
    L.append(f'  -- src/types.rs {a}-{b}')
    body = wrap([f'(.k_{k}, .{ks[k][0]})' for k in sorted(ks)])
    L.append(f'  | .{n} => [\n{body}]')
L.append('  | _ => []')
L += ['', '/-- The children declared without `?` for each `node_type`. -/',
 'def mandatory : NodeType → List Key']
for n in nts:
    if n not in tbl: continue
    ks = [k for k in sorted(tbl[n][0]) if not tbl[n][0][k][1]]
    if ks: L.append(f'  | .{n} => [\n' + wrap([f'.k_{k}' for k in ks]) + ']')
L.append('  | _ => []')
exc = [l.split() for l in open('/verif/tools/exceptions.txt')] if os.path.exists('/verif/tools/exceptions.txt') else []
extra, omitted, devchild = {}, {}, {}
for n, k, kind in sorted(exc):
    (omitted if kind == 'missing' else devchild if kind == 'child' else extra).setdefault(n, []).append((k, kind))
L += ['', '/-- Deviations: children the parser can produce although they are not declared (see DESIGN.md). -/',
 'def undeclared : NodeType → List (Key × Kind)']
for n in nts:
    if n in extra: L.append(f'  | .{n} => [\n' + wrap([f'(.{k}, .{kd})' for k, kd in extra[n]]) + ']')
L.append('  | _ => []')
L += ['', '/-- Deviations: children declared without `?` that the parser can leave out (see DESIGN.md). -/',
 'def omissible : NodeType → List Key']
for n in nts:
    if n in omitted: L.append(f'  | .{n} => [\n' + wrap([f'.{k}' for k, _ in omitted[n]]) + ']')
L.append('  | _ => []')
L += ['', '/-- The `node_type`s declared for a child, where the declaration is a union of concrete node types. -/',
 'def childTypes : NodeType → List (Key × List NodeType)']
for n in nts:
    if ctbl.get(n): L.append(f'  | .{n} => [\n' + wrap([f"(.k_{k}, [{', '.join('.' + t for t in ctbl[n][k])}])" for k in sorted(ctbl[n])]) + ']')
L.append('  | _ => []')
L += ['', '/-- Deviations: children that can have another `node_type` than declared (see DESIGN.md). -/',
 'def otherTypes : NodeType → List Key']
for n in nts:
    if n in devchild: L.append(f'  | .{n} => [\n' + wrap([f'.{k}' for k, _ in devchild[n]]) + ']')
L.append('  | _ => []')
toks = {l.split()[0]: l.split()[1:] for l in open('/verif/tools/tokens.txt')} if os.path.exists('/verif/tools/tokens.txt') else {}
L += ['', '/-- Node types whose token is one of a few keywords or symbols (compared without regard to case), as',
 'their names suggest.  `none`: no claim. -/',
 'def tokenOf : NodeType → Option (List Kw)']
for n in nts:
    if n in toks: L.append(f'  | .{n} => some [\n' + wrap(['.' + k for k in toks[n]]) + ']')
L.append('  | _ => none')
L += ['', 'end Verif.Spec', '']
open('/verif/lean/Verif/Spec/Schema.lean', 'w').write('\n'.join(L))
A = ['import Verif.Model.Program', '/-! Generated by tools/schema.py: the tables of Verif.Spec.Schema as bit masks (checked in',
 'Verif.Proofs.Masks). -/', 'namespace Verif.AI', '']
def table(name, doc, f):
    A.append(f'/-- {doc} -/'); A.append(f'def {name} : NodeType → Nat')
    for n in nts:
        m = f(n)
        if m: A.append(f'  | .{n} => {m}')
    A.append('  | _ => 0'); A.append('')
def mask(ks): return sum(1 << kall.index(k) for k in set(ks))
D = lambda n: tbl[n][0] if n in tbl else {}
table('allowN', 'Keys that may hold a single node.', lambda n: mask(['k_' + k for k, v in D(n).items() if v[0] == 'node'] + [k for k, kd in extra.get(n, []) if kd == 'node']))
table('allowV', 'Keys that may hold an array.', lambda n: mask(['k_' + k for k, v in D(n).items() if v[0] == 'vec'] + [k for k, kd in extra.get(n, []) if kd == 'vec']))
table('needed', 'Keys that must be present.', lambda n: mask(['k_' + k for k, v in D(n).items() if not v[1] and ('k_' + k, 'missing') not in omitted.get(n, [])]))
kwall = re.search(r'def Kw.all : List Kw := \[(.*?)\]', names).group(1).replace('.', '').split(', ')
A.append('/-- Classes of the token (bit 301: no token). -/'); A.append('def allowT : NodeType → Nat')
for n in nts:
    if n in toks: A.append(f'  | .{n} => {sum(1 << kwall.index(k) for k in toks[n])}')
A.append('  | .TypeDeclaration => 2 ^ 302 - 1'); A.append('  | _ => 2 ^ 301 - 1'); A.append('')
A.append('/-- Restricted children: index of the key and mask of the node types. -/'); A.append('def restr : NodeType → List (Nat × Nat)')
for n in nts:
    r = [(kall.index('k_' + k), sum(1 << nts.index(x) for x in t)) for k, t in sorted(ctbl.get(n, {}).items()) if ('k_' + k, 'child') not in devchild.get(n, []) and not k.endswith('_comments')]
    if r: A.append(f'  | .{n} => [' + ', '.join(map(str, r)) + ']')
A.append('  | _ => []'); A.append('')
A += ['end Verif.AI', '']
open('/verif/lean/Verif/Analysis/Allow.lean', 'w').write('\n'.join(A))
