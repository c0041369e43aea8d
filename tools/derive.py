#!/usr/bin/env python3
"""Finds a leftmost derivation (list of rule numbers) of the tokens of a text in the grammar of
tools/grammar.bnf; used for the examples of Verif.Props.Accept."""
import re, sys, os
sys.setrecursionlimit(100000)
here = os.path.dirname(os.path.abspath(__file__))
sys.stdout, o = open(os.devnull, 'w'), sys.stdout
src = open(os.path.join(here, 'grammar.py')).read()
g = {'__file__': os.path.join(here, 'grammar.py')}
exec(src[:src.index("identM = ")], g)
sys.stdout = o
rules, lit, soft = g['rules'], g['lit'], g['soft']
def matches(kind, v, l):
    up = l.upper()
    plain = re.fullmatch(r'[A-Za-z_][A-Za-z0-9_]*', l)
    bq = len(l) >= 2 and l[0] == '`' == l[-1]
    if kind == 'kw': return up == lit[v]
    if kind == 'word': return up == v
    if v == 'ID': return bq or (plain and up not in g['bylit'])
    if v == 'NAME': return bq or (plain and (up not in g['bylit'] or g['bylit'][up] in soft))
    if v == 'WORD': return bq or plain
    if v == 'NUM': return re.fullmatch(r'([0-9]+|[0-9]*\.[0-9]+)([eE][+-]?[0-9]+)?', l)
    if v == 'STR': return len(l) >= 2 and l[0] in '\'"' and l[0] == l[-1]
    if v == 'PAR': return l[0] == '@' or l == '?'
def derive(start, toks):
    memo = {}
    def nt(n, i):
        if (n, i) in memo: return memo[n, i]
        memo[n, i] = {}
        res = {}
        for k, r in enumerate(rules[n]):
            for e, d in seq(r, 0, i).items():
                if e not in res: res[e] = [k] + d
        memo[n, i] = res
        return res
    def seq(r, p, i):
        cur = {i: []}
        for kind, v in r:
            nxt = {}
            for j, d in cur.items():
                if kind == 'nt':
                    for e, d2 in nt(v, j).items(): nxt.setdefault(e, d + d2)
                elif j < len(toks) and matches(kind, v, toks[j]): nxt.setdefault(j + 1, d)
            cur = nxt
            if not cur: break
        return cur
    return nt(start, 0).get(len(toks))
if __name__ == '__main__':
    for l in sys.stdin.read().strip().split('\n'):
        toks = re.findall(r"'[^']*'|\"[^\"]*\"|`[^`]*`|@?\w+(?:\.\d+)?|\|\||<=|>=|<>|!=|<<|>>|=>|\|>|\S", l)
        print(toks, derive(sys.argv[1] if len(sys.argv) > 1 else 'Statement', toks))
