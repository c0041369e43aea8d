#!/usr/bin/env python3
"""Translates tools/grammar.bnf into lean/Verif/Spec/Grammar.lean and the tables of the analysis into
lean/Verif/Analysis/GrammarTable.lean; tools/pres.txt becomes scratch input of tools/GenAccept.lean.txt."""
import re, os, sys
here = os.path.dirname(os.path.abspath(__file__))
root = os.path.join(here, "..", "lean", "Verif")
src = open(os.path.join(root, "Model", "Names.lean")).read()
kws = re.findall(r"\.(\w+)", re.search(r"def Kw.all : List Kw := \[(.*?)\]", src, re.S).group(1))
lit = {}
for m in re.finditer(r"  \| \.(\w+) => \[((?:'(?:\\.|[^'\\])', ?)*'(?:\\.|[^'\\])')\]", src[src.index("def Kw.lit"):]):
    if m.group(1) in kws and m.group(1) not in lit:
        lit[m.group(1)] = "".join(re.findall(r"'(\\.|[^'\\])'", m.group(2)))
assert set(lit) == set(kws), set(kws) - set(lit)
bylit = {v: k for k, v in lit.items()}
idx = {k: i for i, k in enumerate(kws)}
IDENT, QID, NUM, STR, PAR, EOFC = 302, 303, 304, 305, 306, 307
ALL = 2 ** 308 - 1

# --- read the grammar
rules, order, soft = {}, [], []
lines = []
for l in open(os.path.join(here, "grammar.bnf")):
    l = l.rstrip("\n")
    if l.startswith("#"):
        continue
    if not l.strip():
        continue
    if l.startswith(" "):
        lines[-1] += " " + l.strip()
    else:
        lines.append(l)
opts = {}
def tok(s):
    return re.findall(r"'[^' ]+'\??|[^\s']+", s)
terms_special = {"ID", "NAME", "WORD", "NUM", "STR", "PAR"}
def sym(s):
    if s.endswith("?") and s != "'?'" :
        base = s[:-1]
        name = (base.strip("'").capitalize() if base.isupper() or base.startswith("'") else base) + "Opt"
        if base.startswith("'"):
            name = bylit[base.strip("'")].replace("sym_", "Sym") + "Opt"
        if opts.setdefault(name, base) != base:
            sys.exit(f"{base}? and {opts[name]}? have the same name")
        return ("nt", name)
    if s in terms_special:
        return ("t", s)
    if s.startswith("'"):
        return ("kw", bylit[s.strip("'")])
    if re.fullmatch(r"[A-Z_0-9]+", s):
        return ("kw", s) if s in idx else ("word", s)
    return ("nt", s)
text = {}
for l in lines:
    if l.startswith("soft "):
        soft = l.split()[1:]
        continue
    n, r = l.split("::=")
    n = n.strip()
    assert n not in rules, n
    alts = []
    # split on a free-standing bar
    depth = [x for x in re.split(r"\s\|\s", r)]
    for a in depth:
        t = tok(a)
        alts.append([] if t == ["ε"] else [sym(x) for x in t])
    rules[n] = alts
    text[n] = " ".join(l.split())
    order.append(n)
for n, b in opts.items():
    rules[n] = [[], [sym(b)]]
    text[n] = f"{n} ::= ε | {b}"
    order.append(n)
for n in order:
    for a in rules[n]:
        for k, v in a:
            if k == "nt" and v not in rules:
                sys.exit(f"undefined {v} in {n}")
identM = (1 << IDENT) | (1 << QID)
nameM = identM
for w in soft:
    nameM |= 1 << idx[w]
wordM = identM
for k in kws:
    if re.fullmatch(r"[A-Z_][A-Z_0-9]*", lit[k]):
        wordM |= 1 << idx[k]
def mask(s):
    k, v = s
    if k == "kw": return 1 << idx[v]
    if k == "word": return 1 << IDENT
    return {"ID": identM, "NAME": nameM, "WORD": wordM, "NUM": 1 << NUM, "STR": 1 << STR, "PAR": (1 << PAR) | (1 << idx["sym_quest"])}[v]
nullable = {n: False for n in order}
first = {n: 0 for n in order}
ch = True
while ch:
    ch = False
    for n in order:
        for a in rules[n]:
            f, nul = 0, True
            for s in a:
                if s[0] == "nt":
                    f |= first[s[1]]
                    if not nullable[s[1]]:
                        nul = False; break
                else:
                    f |= mask(s); nul = False; break
            if f | first[n] != first[n] or (nul and not nullable[n]):
                first[n] |= f; nullable[n] = nullable[n] or nul; ch = True
reach, todo = set(), ["Step"]
while todo:
    n = todo.pop()
    if n in reach: continue
    reach.add(n)
    for a in rules[n]:
        todo += [v for k, v in a if k == "nt"]
if set(order) - reach:
    print("unreachable:", set(order) - reach, file=sys.stderr)
def lname(n):
    return n
def lsym(s):
    k, v = s
    if k == "nt": return f".nt .{lname(v)}"
    if k == "kw": return f".t (.kw .{v})"
    if k == "word": return ".t (.word [" + ", ".join(f"'{c}'" for c in v) + "])"
    return ".t ." + {"ID": "ident", "NAME": "name", "WORD": "anyWord", "NUM": "number", "STR": "string", "PAR": "param"}[v]
def wrap(items, ind, sep=" | "):
    out, cur = [], ind
    for i in items:
        if len(cur) + len(i) > 98:
            out.append(cur.rstrip()); cur = ind
        cur += sep.strip() + " " + i + " "
    out.append(cur.rstrip())
    return out
o = open(os.path.join(here, "Grammar.head")).read().rstrip("\n").split("\n")
o += ["", "/-- Nonterminal symbols. -/", "inductive NT"]
o += wrap(order, "  ", "| ")
o += ["  deriving DecidableEq, Repr, Inhabited", ""]
o += ["/-- All nonterminal symbols. -/", "def NT.all : List NT := [" + ", ".join("." + n for n in order) + "]", ""]
o += ["/-- Words of the parser that are no reserved words and may be used as names. -/",
      "def softWords : List Kw := [" + ", ".join("." + w for w in soft) + "]", ""]
o += open(os.path.join(here, "Grammar.mid")).read().rstrip("\n").split("\n")
for n in order:
    t = text[n]
    for i in range(0, 1):
        o += ["-- " + x for x in re.findall(r".{1,100}(?:\s|$)", t)]
    o.append(f"  | .{n} => [" + ",\n      ".join("[" + ", ".join(lsym(s) for s in a) + "]" for a in rules[n]) + "]")
o += [""] + open(os.path.join(here, "Grammar.tail")).read().rstrip("\n").split("\n") + [""]
open(os.path.join(root, "Spec", "Grammar.lean"), "w").write("\n".join(o))
def gsym(s):
    if s[0] == "nt": return f".N .{s[1]} ALL"
    return f".T 0x{mask(s):x}"
o = ["import Verif.Analysis.Accept",
     "/-! Generated by tools/grammar.py: the grammar in the form used by the analysis (checked by `tables_ok`). -/",
     "namespace Verif.GI", "open AI Spec", "",
     "/-- Productions. -/", "def prodsT : NT → List (List GSym)"]
for n in order:
    o.append(f"  | .{n} => [" + ", ".join("[" + ", ".join(gsym(s) for s in a) + "]" for a in rules[n]) + "]")
o += ["", "/-- First tokens. -/", "def firstT : NT → Mask"]
for n in order: o.append(f"  | .{n} => 0x{first[n]:x}")
o += ["", "/-- Emptiness. -/", "def nullableT : NT → Bool"]
for n in order: o.append(f"  | .{n} => {'true' if nullable[n] else 'false'}")
o += ["", "/-- The tables. -/", "def tables : Tables := ⟨prodsT, firstT, nullableT⟩", "", "end Verif.GI", ""]
open(os.path.join(root, "Analysis", "GrammarTable.lean"), "w").write("\n".join(o))
# --- input of tools/GenAccept.lean.txt: the tables, and the summaries to be inferred
ntIdx = {n: i for i, n in enumerate(order)}
def dsym(s):
    return f"N:{ntIdx[s[1]]}:{ALL}" if s[0] == "nt" else f"T:{mask(s)}"
def psym(s):
    if s == "ANY": return f"T:{ALL}"
    if "/" in s and s[0] != "'": return "T:%d" % sum(1 << idx[k] if k in idx else mask(("t", k)) for k in s.split("/"))
    return dsym(sym(s))
o = []
for n in order:
    o.append(f"F\t{ntIdx[n]}\t{first[n]}\t{int(nullable[n])}")
    for a in rules[n]:
        o.append(f"R\t{ntIdx[n]}\t" + " ".join(map(dsym, a)))
for l in open(os.path.join(here, "pres.txt")):
    l = l.split("#")[0].strip()
    if not l: continue
    f, r = l.split(":", 1)
    ceil = ALL
    if " ! " in r:
        r, d = r.split(" ! ")
        for x in tok(d):
            if x == "ORD": m = sum(1 << idx[k] for k in ("ASC", "DESC", "NULLS"))
            elif x == "EOF": m = 1 << EOFC
            else:
                s = sym(x); m = first[s[1]] if s[0] == "nt" else mask(s)
            ceil &= ~m
    alist, args = r.strip(), ""
    m = re.match(r"\(([^']*?)\)\s*(.*)", alist)
    if m:
        args, alist = m.group(1), m.group(2)
    o.append(f"S\t{f.strip()}\t{args}\t" + " ".join(psym(x) for x in tok(alist)) + f"\t{ceil}")
open(os.environ.get("SC", "/tmp/scratch") + "/tables.txt", "w").write("\n".join(o) + "\n")
print(len(order), "nonterminals,", sum(len(rules[n]) for n in order), "productions")
