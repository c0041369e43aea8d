"""Translate the parse_* functions of /repo/src/parser.rs into the command
language of Verif/Model/Syntax.lean.  Output: Verif/Model/Names.lean and
Verif/Model/Program.lean.  Anything outside the known shapes raises."""
import sys, os, re
sys.path.insert(0, os.path.dirname(__file__))
import rustparse

SRC = '/repo/src/parser.rs'
OUT = os.path.join(os.path.dirname(__file__), '..', 'lean', 'Verif', 'Model')
CORE = {'new', 'parse_code', 'construct_node', 'get_precedence', 'get_offset_index',
        'get_token', 'is_eof', 'next_token'}
SELF = ('self', 'parser')

SYM = {',': 'comma', '.': 'dot', '(': 'lparen', ')': 'rparen', ';': 'semi', '<': 'lt', '>': 'gt',
       '[': 'lbrack', ']': 'rbrack', '*': 'star', '+': 'plus', '-': 'minus', '~': 'tilde', '/': 'slash',
       '||': 'concat', '<<': 'shl', '>>': 'shr', '&': 'amp', '^': 'caret', '|': 'bar', '=': 'eq',
       '<=': 'le', '>=': 'ge', '<>': 'ltgt', '!=': 'ne', '=>': 'arrow', '|>': 'pipe', '?': 'quest',
       '{': 'lbrace', ':': 'colon'}
kws, keys, vars_, fns_used = [], set(), [], []

def kw(s):
    s = s.upper()
    if s not in kws: kws.append(s)
    return '.' + kwname(s)
def kwname(s):
    if re.fullmatch(r'[A-Z_][A-Z0-9_]*', s): return s
    return 'sym_' + SYM[s]
def key(s):
    keys.add(s); return '.k_' + s
def var(x):
    if x not in vars_: vars_.append(x)
    return 'v_' + x

def bs(b):
    return b if isinstance(b, list) else b[2]

class Fn:
    def __init__(self, d):
        self.d = d
        self.alias = {}
        self.scopes = [{}]
        self.names = {}
        self.ptypes = dict(d['params'])
        self.hoist = []
    # -- variables
    def declare(self, name):
        if any(name in s for s in self.scopes):
            n = self.names.get(name, 0) + 1
            self.names[name] = n
            real = f'{name}_{n}'
        else:
            real = name
        self.scopes[-1][name] = real
        return var(real)
    def lookup(self, name):
        for s in reversed(self.scopes):
            if name in s: return var(s[name])
        raise KeyError(name)
    # -- offsets
    def off(self, e):
        if e[0] == 'num': return f'(.lit {e[1]})'
        if e[0] == 'id': return f'(.var {self.lookup(e[1])} 0)'
        if e[0] == 'arith' and e[1] == '+' and e[2][0] == 'id' and e[3][0] == 'num':
            return f'(.var {self.lookup(e[2][1])} {e[3][1]})'
        raise Exception(('off', e))
    def tok(self, e):
        """offset of an expression denoting a token, or None"""
        if e[0] == 'paren': return self.tok(e[1])
        if e[0] == 'try' and e[1][0] == 'mcall' and e[1][1][0] == 'id' and e[1][1][1] in SELF and e[1][2] == 'get_token':
            return self.off(e[1][3][0])
        if e[0] == 'id' and e[1] in self.alias: return self.alias[e[1]]
        return None
    def upper(self, e):
        """offset if e is <token>.literal.to_uppercase()[.as_str()]"""
        if e[0] == 'mcall' and e[2] == 'as_str': e = e[1]
        if e[0] == 'mcall' and e[2] == 'to_uppercase' and e[1][0] == 'field' and e[1][2] == 'literal':
            return self.tok(e[1][1])
        return None
    def raw(self, e):
        if e[0] == 'mcall' and e[2] == 'as_str': e = e[1]
        if e[0] == 'field' and e[2] == 'literal': return self.tok(e[1])
        return None
    def strs(self, e):
        if e[0] == 'ref': e = e[1]
        if e[0] == 'vec':
            assert all(x[0] == 'str' for x in e[1]), e
            return '[' + ', '.join(kw(x[1]) for x in e[1]) + ']'
        return None
    # -- conditions
    def cond(self, e):
        t = e[0]
        if t == 'paren': return self.cond(e[1])
        if t == 'not': return f'(.not {self.cond(e[1])})'
        if t in ('or', 'and'):
            # adjacency test (parser.rs 956-958)
            if t == 'and':
                a, b = e[1], e[2]
                if a[0] == 'cmp' and a[2][0] == 'field' and a[2][2] == 'line':
                    assert a[1] == '==' and a[3][0] == 'field' and a[3][2] == 'line'
                    o0, o1 = self.tok(a[2][1]), self.tok(a[3][1])
                    assert b[0] == 'cmp' and b[1] == '==' and b[2][0] == 'arith' and b[2][1] == '+'
                    assert b[2][2] == ('field', a[2][1], 'column') and b[3] == ('field', a[3][1], 'column')
                    assert b[2][3] == ('mcall', ('mcall', ('field', a[2][1], 'literal'), 'chars', []), 'count', [])
                    assert (o0, o1) == ('(.lit 0)', '(.lit 1)')
                    return '.adjacent'
            return f'(.{t} {self.cond(e[1])} {self.cond(e[2])})'
        if t == 'mcall':
            _, r, m, a = e
            o = self.tok(r)
            if o is not None:
                if m == 'is': assert a[0][0] == 'str'; return f'(.up {o} [{kw(a[0][1])}])'
                if m == 'in_':
                    l = self.strs(a[0])
                    if l is not None: return f'(.up {o} {l})'
                    v = a[0][1] if a[0][0] == 'ref' else a[0]
                    return f'(.upVar {o} {self.lookup(v[1])})'
                if m == 'is_identifier': return f'(.isIdent {o})'
                if m == 'is_string': return f'(.isStr {o})'
                if m == 'is_numeric': return f'(.isNum {o})'
            if r[0] == 'id' and r[1] in SELF and m == 'is_eof': return f'(.eof {self.off(a[0])})'
            # stmt.children.keys().any(|k| k == "a" || k == "b")
            if m == 'any' and r[0] == 'mcall' and r[2] == 'keys' and r[1][0] == 'field' and r[1][2] == 'children':
                v = self.lookup(r[1][1][1])
                c = a[0]; assert c[0] == 'closure'
                def ks(x):
                    if x[0] == 'or': return ks(x[1]) + ks(x[2])
                    assert x[0] == 'cmp' and x[1] == '==' and x[3][0] == 'str', x
                    return [x[3][1]]
                return f'(.hasAnyKey {v} [{", ".join(key(k) for k in ks(c[2]))}])'
        if t == 'id':
            if e[1] == 'true': return '(.const true)'
            if e[1] == 'false': return '(.const false)'
            return f'(.bvar {self.lookup(e[1])})'
        if t == 'cmp':
            _, op, a, b = e
            if op in ('==', '!='):
                neg = (lambda s: s) if op == '==' else (lambda s: f'(.not {s})')
                if b[0] == 'str':
                    o = self.upper(a)
                    if o is not None: assert b[1] == b[1].upper(); return neg(f'(.up {o} [{kw(b[1])}])')
                    o = self.raw(a)
                    if o is not None: assert b[1] == b[1].upper(); return neg(f'(.raw {o} [{kw(b[1])}])')
                    if a[0] == 'id': return neg(f'(.strIs {self.lookup(a[1])} {kw(b[1])})')
                if b[0] == 'id' and b[1].startswith('NodeType::') and a[0] == 'field' and a[2] == 'node_type':
                    x = a[1][1]
                    if x in self.alias and self.alias[x][0] == 'leftmost':
                        return neg(f'(.leftmostIs {self.alias[x][1]} .{b[1][10:]})')
                    return neg(f'(.typeIs {self.lookup(x)} .{b[1][10:]})')
                # curr_token.literal.chars().next().unwrap() == '`'
                if b[0] == 'char' and a[0] == 'mcall' and a[2] == 'unwrap' and a[1][0] == 'mcall' and a[1][2] in ('next', 'last'):
                    ch = a[1][1]; assert ch[0] == 'mcall' and ch[2] == 'chars'
                    o = self.raw(ch[1]); assert o == '(.lit 0)'
                    nm = 'firstCharIs' if a[1][2] == 'next' else 'lastCharIs'
                    return neg(f"(.{nm} '{b[1].strip(chr(39))}')")
                if a[0] == 'mcall' and a[2] == 'len' and b == ('num', 1) : return neg(f'(.lenOne {self.lookup(a[1][1])})')
            if op == '<' and a[0] == 'try' and a[1][0] == 'mcall' and a[1][2] == 'get_precedence':
                assert self.off(a[1][3][0]) == '(.lit 1)'
                return f'(.precLt {self.lookup(b[1])})'
            if op == '<' and a == ('num', 0) and b[0] == 'mcall' and b[2] == 'len': return f'(.lenPos {self.lookup(b[1][1])})'
            if op == '>' and b == ('num', 0) and a[0] == 'mcall' and a[2] == 'len': return f'(.lenPos {self.lookup(a[1][1])})'
        raise Exception(('cond', e))
    # -- call arguments
    def atom(self, e):
        if e == ('id', 'true'): return '.bool true'
        if e == ('id', 'false'): return '.bool false'
        if e == ('id', 'usize::MAX'): return '.nat usizeMax'
        if e[0] == 'num': return f'.nat {e[1]}'
        if e[0] == 'not' and e[1][0] == 'id': return f'.notVar {self.lookup(e[1][1])}'
        if e[0] == 'id': return f'.var {self.lookup(e[1])}'
        if e[0] == 'cmp' and e[1] == '==' and e[2][0] == 'id' and e[3][0] == 'str':
            return f'.strEq {self.lookup(e[2][1])} {kw(e[3][1])}'
        l = self.strs(e)
        if l is not None: return f'.kws {l}'
        raise Exception(('atom', e))
    def callexp(self, e):
        """self.f(args) -> (fn, args)"""
        if e[0] == 'mcall' and e[1][0] == 'id' and e[1][1] in SELF and e[2] not in CORE:
            return f'.{e[2]}', '[' + ', '.join(self.atom(a) for a in e[3]) + ']'
        if e[0] == 'call' and e[1] == ('id', 'parse_single_or_multi_token_identifier'):
            return '.parse_single_or_multi_token_identifier', '[]'
        return None
    # -- expressions without control flow
    def exp(self, e):
        if e[0] == 'paren': return self.exp(e[1])
        if e[0] == 'try':
            i = e[1]
            if i[0] == 'mcall' and i[1][0] == 'id' and i[1][1] in SELF:
                if i[2] == 'construct_node':
                    assert i[3][0][1].startswith('NodeType::')
                    return f'(.construct .{i[3][0][1][10:]})'
                if i[2] == 'get_precedence': return f'(.prec {self.off(i[3][0])})'
            c = self.callexp(i)
            if c: return f'(.call {c[0]} {c[1]})'
        if e[0] == 'call' and e[1] == ('id', 'Node::empty'): return f'(.empty .{e[2][0][1][10:]})'
        if e[0] == 'call' and e[1] == ('id', 'Vec::new'): return '.nilVec'
        if e[0] == 'vec' and e[1] == []: return '.nilVec'
        if e[0] == 'vec' and all(x[0] == 'str' for x in e[1]): return f'(.kws {self.strs(e)})'
        if e[0] == 'mcall' and e[2] == 'unwrap' and e[1][0] == 'mcall' and e[1][2] == 'pop':
            return f'(.pop {self.lookup(e[1][1][1])})'
        if e == ('id', 'true'): return '(.boolLit true)'
        if e == ('id', 'false'): return '(.boolLit false)'
        if e == ('id', 'usize::MAX'): return '(.natLit usizeMax)'
        if e[0] == 'num': return f'(.natLit {e[1]})'
        if e[0] == 'id': return f'(.var {self.lookup(e[1])})'
        o = self.upper(e)
        if o is not None: return f'(.upperLit {o})'
        if e[0] in ('and', 'or', 'not', 'cmp'): return f'(.cond {self.cond(e)})'
        raise Exception(('exp', e))
    # -- assigning the value of an expression (with control flow) to a variable
    def assign(self, x, e, line):
        t = e[0]
        if t == 'if':
            _, ln, c, th, el = e
            return [('ite', ln, self.cond(c), self.valblock(x, th), self.valblock(x, el))]
        if t == 'block': return self.valblock(x, e)
        if t == 'match':
            # match self.f(args) { Ok(s) => s, Err(_) => {...} }   (parser.rs 1247)
            sc = e[2]
            c = self.callexp(sc)
            if c:
                arms = e[3]
                assert len(arms) == 2 and arms[0][0][0][:2] == ('ctor', 'Ok') and arms[1][0][0][:2] == ('ctor', 'Err')
                return [('try', line, x, c[0], c[1], self.valblock(x, arms[1][2]))]
            if sc[0] == 'mcall' and sc[2] == 'get_token': raise Exception('token match')
            return self.match(e, lambda b: self.valblock(x, b))
        if t == 'vec' and e[1] and e[1][0][0] != 'str':
            tmp = var('vec_tmp')
            out = [('set', line, tmp, '.nilVec')]
            for y in e[1]: out.append(('append', line, tmp, self.exp(y)))
            out.append(('set', line, x, f'(.var {tmp})'))
            return out
        ex = self.exp(e)
        if ex == f'(.var {x})': return []
        return [('set', line, x, ex)]
    def valblock(self, x, b):
        if b is None: raise Exception('no else')
        if isinstance(b, list): b = ('block', self.line, b)
        if b[0] == 'block':
            self.scopes.append({})
            stmts = b[2]; out = []
            last = stmts[-1]
            out += self.stmts(stmts[:-1])
            if last[0] == 'expr' and last[2][0] in ('return', 'break'): out += self.stmt(last)
            elif last[0] == 'expr':
                assert not last[3], last
                out += self.assign(x, last[2], last[1])
            else: raise Exception(('valblock', last))
            self.scopes.pop()
            return out
        if b[0] in ('return',): return self.stmt(('expr', b[1], b, True))
        return self.assign(x, b, self.line)
    def match(self, e, arm):
        """match on a token literal or string variable -> chain of ite"""
        _, ln, sc, arms = e
        o = self.upper(sc)
        mk = None
        if o is not None: mk = lambda l: f'(.up {o} [{", ".join(kw(s) for s in l)}])'
        else:
            o = self.raw(sc)
            if o is not None: mk = lambda l: f'(.raw {o} [{", ".join(kw(s) for s in l)}])'
            elif sc[0] == 'mcall' and sc[2] == 'as_str' and sc[1][0] == 'id':
                v = self.lookup(sc[1][1])
                def mk(l):
                    r = f'(.strIs {v} {kw(l[0])})'
                    for s in l[1:]: r = f'(.or {r} (.strIs {v} {kw(s)}))'
                    return r
        if mk is None: raise Exception(('match', sc))
        res = None
        for pats, guard, body, line in reversed(arms):
            assert guard is None
            self.line = line
            if pats[0][0] == 'wild':
                assert res is None
                res = arm(body)
            else:
                assert all(p[0] == 'str' and p[1] == p[1].upper() for p in pats), pats
                res = [('ite', line, mk([p[1] for p in pats]), arm(body), res)]
        return res
    # -- statements
    def block(self, b):
        if b is None: return []
        if isinstance(b, list): b = ('block', self.line, b)
        if b[0] == 'block':
            self.scopes.append({})
            out = self.stmts(b[2])
            self.scopes.pop()
            return out
        if b[0] == 'unit': return []
        return self.stmt(('expr', self.line, b, True))
    def stmts(self, ss):
        out = []; i = 0
        while i < len(ss):
            s = ss[i]
            # let mut offset = k; loop {...}
            if s[0] == 'let' and s[2] == 'offset' and ss[i+1][0] == 'expr' and ss[i+1][2][0] == 'loop':
                out += self.scan(s, ss[i+1]); i += 2; continue
            # let mut first_node = &left; while ... (parser.rs 706-712)
            if s[0] == 'let' and s[4] and s[4][0] == 'ref':
                w = ss[i+1][2]
                v = s[2]
                assert w[0] == 'while' and w[2] == ('cmp', '==', ('field', ('id', v), 'node_type'), ('id', 'NodeType::DotOperator')), w
                m = bs(w[3])[0][2]
                assert m[0] == 'match' and m[2] == ('mcall', ('field', ('id', v), 'children'), 'get', [('str', 'left')]), m
                self.alias[v] = ('leftmost', self.lookup(s[4][1][1]))
                i += 2; continue
            out += self.stmt(s); i += 1
        return out
    def scan(self, s, l):
        lo = s[4][1]
        x = self.declare('offset')
        body = bs(l[2][2])
        if lo == 0:
            assert body[0][:3] == ('assign', body[0][1], '+=') and body[0][4] == ('num', 1)
            self.scopes.append({})
            b = self.stmts(body[1:])
            self.scopes.pop()
            return [('scan', s[1], x, 1, 'none', b)]
        assert lo == 1 and len(body) == 1 and body[0][2][0] == 'match'
        m = body[0][2]; arms = list(m[3])
        d = arms[-1]
        assert d[0][0][0] == 'wild'
        ds = bs(d[2])
        assert ds[0][0] == 'assign' and ds[0][2] == '+=' and ds[0][4] == ('num', 1), ds
        c = ds[1][2]
        assert c[0] == 'if' and c[2] == ('cmp', '<', ('num', 5), ('id', 'offset')) and bs(c[3])[0][2][0] == 'break', c
        arms[-1] = (d[0], d[1], ('unit',), d[3])
        b = self.match((m[0], m[1], m[2], arms), self.block)
        return [('scan', s[1], x, 1, '(some (.nat 6))', b)]
    def stmt(self, s):
        t = s[0]; line = s[1]; self.line = line
        if t == 'nop': return []
        if t == 'fn':
            return []
        if t == 'let':
            _, _, name, ty, e = s
            if e is None: self.declare(name); return []
            # token aliases
            o = self.tok(e) if e[0] == 'try' else None
            if o is not None: self.alias[name] = o; return []
            if e[0] == 'match' and e[2][0] == 'mcall' and e[2][2] == 'get_token':
                arms = e[3]
                o = self.off(e[2][3][0])
                assert arms[0][0][0][:2] == ('ctor', 'Ok') and arms[1][0][0][:2] == ('ctor', 'Err') and arms[1][2][0] == 'break', arms
                self.alias[name] = o
                return [('ite', line, f'(.hasTok {o})', [], [('brk', line)])]
            if e == ('mcall', ('id', 'self'), 'clone', []): return []
            # the right hand side is evaluated before the name is in scope
            self.scopes.append({})
            if any(name in sc for sc in self.scopes):
                n = self.names.get(name, 0) + 1
                real = f'{name}_{n}'
            else: real = name
            out = self.assign(var(real), e, line)
            self.scopes.pop()
            got = self.declare(name)
            if got != 'v_' + real: raise Exception(('shadow', name, line, got, real))
            return out
        if t == 'assign':
            _, _, op, lhs, rhs = s
            assert op == '=', s
            if lhs[0] == 'field' and lhs[2] == 'node_type':
                return [('setType', line, self.lookup(lhs[1][1]), '.' + rhs[1][10:])]
            if lhs[0] == 'field' and lhs[1] == ('id', 'self'):
                assert rhs[0] == 'field' and rhs[1] == ('id', 'org') and rhs[2] == lhs[2]
                return []  # restoring the saved parser state, see Cmd.tryElse
            return self.assign(self.lookup(lhs[1]), rhs, line)
        assert t == 'expr', s
        e = s[2]
        k = e[0]
        if k == 'try':
            i = e[1]
            if i[0] == 'mcall' and i[2] == 'next_token' and i[1][1] in SELF: return [('next', line)]
        if k == 'mcall' and e[1][0] == 'id':
            x = e[1][1]
            if e[2] == 'push_node':
                return [('push', line, self.lookup(x), key(e[3][0][1]), self.exp(e[3][1]))]
            if e[2] == 'push_node_vec':
                a = e[3][1]
                if a[0] == 'vec' and a[1]:
                    tmp = var('vec_tmp')
                    out = self.assign(tmp, a, line)
                    return out + [('pushVec', line, self.lookup(x), key(e[3][0][1]), f'(.var {tmp})')]
                return [('pushVec', line, self.lookup(x), key(e[3][0][1]), self.exp(a))]
            if e[2] == 'push':
                return [('append', line, self.lookup(x), self.exp(e[3][0]))]
        if k == 'if':
            c = self.cond(e[2])
            th = self.block(e[3]); el = self.block(e[4]) if e[4] else []
            return [('ite', e[1], c, th, el)]
        if k == 'match': return self.match(e, self.block)
        if k == 'while':
            c = self.cond(e[2])
            return [('loop', e[1], [('ite', e[1], c, self.block(e[3]), [('brk', e[1])])])]
        if k == 'loop': return [('loop', e[1], self.block(e[2]))]
        if k == 'whilelet':
            _, ln, pat, sc, b = e
            assert sc[0] == 'mcall' and sc[2] == 'pop'
            v = self.lookup(sc[1][1])
            self.scopes.append({})
            p0 = pat[0] if isinstance(pat, list) else pat
            x = self.declare(p0[2][0][0][1] if isinstance(p0[2][0], list) else p0[2][0][1])
            body = self.block(b)
            self.scopes.pop()
            return [('drain', ln, v, x, body)]
        if k == 'for':
            _, ln, v, it, b = e
            assert it[0] == 'range' and it[1] == ('num', 1) and it[2] == ('id', 'n')
            self.scopes.append({})
            x = self.declare('i')
            body = self.block(b)
            self.scopes.pop()
            return [('scan', ln, x, 1, f'(some (.var {self.lookup("n")}))', body)]
        if k == 'break': return [('brk', line)]
        if k == 'return': return self.ret(e[2], e[1])
        if k == 'block': return self.block(e)
        if k == 'unit': return []
        if not s[3]:
            return self.ret(e, line)
        raise Exception(('stmt', s))
    def ret(self, e, line):
        if e[0] == 'call' and e[1] == ('id', 'Ok'):
            a = e[2][0]
            if a[0] == 'vec' and a[1]:
                tmp = var('vec_tmp')
                return self.assign(tmp, a, line) + [('ret', line, f'(.var {tmp})')]
            return [('ret', line, self.exp(a))]
        if e[0] == 'call' and e[1] == ('id', 'Err'):
            f = e[2][0]; assert f[1] == ('id', 'BQ2CSTError::from_token')
            o = self.tok(f[2][0])
            m = f[2][1]
            if m[0] == 'macro':
                assert m[1] == 'format', m
                for a in m[2][1:]: assert self.tok(a) == o, (line, m)
            return [('fail', line, o, line)]
        c = self.callexp(e)
        if c: return [('ret', line, f'(.call {c[0]} {c[1]})')]
        raise Exception(('ret', line, e))
    def body(self):
        ss = self.d['body'][2] if isinstance(self.d['body'], tuple) else self.d['body']
        for n, _ in self.d['params']:
            if n not in SELF: self.declare(n)
        self.scopes.append({})
        out = []
        i = 0
        pre, last = ss[:-1], ss[-1]
        out += self.stmts(pre)
        out += self.tail(last)
        return out
    def tail(self, s):
        """tail expression of a function body"""
        if s[0] == 'expr' and s[2][0] == 'if' and not s[3]:
            e = s[2]
            c = self.cond(e[2])
            return [('ite', e[1], c, self.tailblock(e[3]), self.tailblock(e[4]))]
        return self.stmt(s)
    def tailblock(self, b):
        self.scopes.append({})
        ss = b if isinstance(b, list) else b[2]
        out = self.stmts(ss[:-1]) + self.tail(ss[-1])
        self.scopes.pop()
        return out

def pp(cmds, ind):
    """list of commands -> Lean term"""
    pad = '  ' * ind
    if not cmds: return pad + '.skip'
    parts = [pp1(c, ind) for c in cmds]
    return ' ;;\n'.join(parts)
def pp1(c, ind):
    pad = '  ' * ind
    t = c[0]
    if t == 'ite':
        return f'{pad}.ite {c[2]} (\n{pp(c[3], ind+1)}) (\n{pp(c[4], ind+1)})' if c[4] else f'{pad}.ite {c[2]} (\n{pp(c[3], ind+1)}) .skip'
    if t == 'loop': return f'{pad}.loop (\n{pp(c[2], ind+1)})'
    if t == 'scan': return f'{pad}.scan {c[2]} {c[3]} {c[4]} (\n{pp(c[5], ind+1)})'
    if t == 'drain': return f'{pad}.drain {c[2]} {c[3]} (\n{pp(c[4], ind+1)})'
    if t == 'try': return f'{pad}.tryElse {c[2]} {c[3]} {c[4]} (\n{pp(c[5], ind+1)})'
    if t in ('next', 'brk'): return f'{pad}.{t}'
    if t == 'ret': return f'{pad}.ret {c[2]}'
    if t == 'fail': return f'{pad}.fail {c[2]} {c[3]}'
    if t in ('set', 'append', 'setType'): return f'{pad}.{t} {c[2]} {c[3]}'
    if t in ('push', 'pushVec'): return f'{pad}.{t} {c[2]} {c[3]} {c[4]}'
    raise Exception(c)

def chars(s):
    def ch(c):
        if c == "'": return "'\\''"
        if c == '\\': return "'\\\\'"
        return f"'{c}'"
    return '[' + ', '.join(ch(c) for c in s) + ']'

def enum(name, ctors, doc):
    out = [f'/-- {doc} -/', f'inductive {name}']
    line = ' '
    for c in ctors:
        if len(line) + len(c) > 95: out.append(line); line = ' '
        line += f' | {c}'
    out.append(line)
    out.append('  deriving DecidableEq, Repr, Inhabited')
    return '\n'.join(out)

def main():
    ds = rustparse.parse_file(SRC)
    todo = []
    for d in ds:
        if d['name'] in CORE: continue
        todo.append(d)
        body = d['body'][2] if isinstance(d['body'], tuple) else d['body']
        for s in body:
            if s[0] == 'fn': todo.append(s[2])
    progs = []
    for d in todo:
        f = Fn(d)
        try: b = f.body()
        except Exception as e:
            print('FAILED', d['name'], d['line'], e); raise
        progs.append((d, b))
    # extra keys / keywords used by the core
    for k in ('leading_comments', 'trailing_comments'): key(k)
    for k in ['(', '[', '.', '*', '/', '||', '+', '-', '<<', '>>', '&', '^', '|', '=', '<', '>', '<=', '>=', '!=',
              '<>', 'LIKE', 'BETWEEN', 'IN', 'IS', 'NOT', 'ENFORCED', 'AND', 'OR', '=>', 'TRUE', 'FALSE', 'NULL',
              'ARRAY', 'STRUCT']: kw(k)
    reserved = re.findall(r'"([A-Z_]+)"', open('/repo/src/constants.rs').read())
    for k in reserved: kw(k)
    nts = re.findall(r'^    ([A-Za-z]+),', re.search(r'pub enum NodeType \{(.*?)\n\}', open('/repo/src/cst.rs').read(), re.S).group(1), re.M)
    kl = sorted(keys)
    ks = sorted(kws)
    fnames = [d['name'] for d, _ in progs]
    L = []
    L.append('/-! Generated by tools/translate.py from /repo/src — names used by the deep embedding. -/')
    L.append('namespace Verif\n')
    L.append(enum('NodeType', nts, 'src/cst.rs lines 15-168: `enum NodeType`, all variants in order.'))
    L.append('\n' + enum('Key', ['k_' + k for k in kl], 'The child keys (strings) used by `push_node` / `push_node_vec` in src/parser.rs, in string order.'))
    L.append('\n/-- The string a key stands for (arguments of `push_node`, src/cst.rs 231-238, in src/parser.rs). -/\ndef Key.name : Key → List Char')
    for k in kl: L.append(f'  | .k_{k} => {chars(k)}')
    L.append('\n' + enum('Kw', [kwname(k) for k in ks], 'The string constants compared with token literals in src/parser.rs and src/constants.rs (upper-cased).'))
    L.append('\n/-- The string a `Kw` stands for (string constants of src/parser.rs and src/constants.rs). -/\ndef Kw.lit : Kw → List Char')
    for k in ks: L.append(f'  | .{kwname(k)} => {chars(k)}')
    L.append('\n/-- src/constants.rs: `KEYWORDS`, in order. -/\ndef reservedKeywords : List Kw := [')
    L.append('  ' + ',\n  '.join(', '.join('.' + kwname(k) for k in reserved[i:i+8]) for i in range(0, len(reserved), 8)) + ']')
    L.append('\n' + enum('Fn', fnames, 'The `parse_*` functions of src/parser.rs (the nested helper of `parse_identifier` included).'))
    L.append('\n/-- All node types, src/cst.rs 16-168. -/\ndef NodeType.all : List NodeType := [' + ', '.join('.' + n for n in nts) + ']')
    L.append('\n/-- All keys (src/parser.rs). -/\ndef Key.all : List Key := [' + ', '.join('.k_' + n for n in kl) + ']')
    L.append('\n/-- All keyword constants (src/parser.rs, src/constants.rs). -/\ndef Kw.all : List Kw := [' + ', '.join('.' + kwname(n) for n in ks) + ']')
    L.append('\n/-- All functions (src/parser.rs). -/\ndef Fn.all : List Fn := [' + ', '.join('.' + n for n in fnames) + ']')
    L.append('\n/-- The name of a node type (src/cst.rs 205, `{:?}`). -/\ndef NodeType.name : NodeType → List Char')
    for k in nts: L.append(f'  | .{k} => {chars(k)}')
    L.append('\n/-- Local variables of the functions in src/parser.rs, numbered. -/\nabbrev Var := Nat\n')
    src = open('/repo/src/parser.rs').read().split('\n')
    def decl(v):
        base = re.sub(r'_\d+$', '', v)
        pats = [rf'\blet (mut )?{base}\b', rf'\b(mut )?{base}: ', rf'\bfor {base} in\b', rf'\b(Some|Ok)\((mut )?{base}\)', rf'\b{base}\b']
        for p in pats:
            ls = [i + 1 for i, l in enumerate(src) if re.search(p, l)]
            if ls: return base, ls[0]
        return base, None
    for i, v in enumerate(vars_):
        base, line = decl(v)
        where = f'src/parser.rs {line}: `{base}`.' if line else 'Introduced by the translation of src/parser.rs.'
        L.append(f'/-- {where} -/\nabbrev v_{v} : Var := {i}')
    L.append('\nend Verif')
    os.makedirs(OUT, exist_ok=True)
    open(os.path.join(OUT, 'Names.lean'), 'w').write('\n'.join(L) + '\n')
    L = ['import Verif.Model.Syntax', '/-! Generated by tools/translate.py from /repo/src/parser.rs — the bodies of the `parse_*` functions. -/',
         'namespace Verif.Program', 'open Cmd Exp Cond Atom Off', '']
    for d, b in progs:
        ps = [n for n, _ in d['params'] if n not in SELF]
        L.append(f"/-- src/parser.rs lines {d['line']}-{d['end']}: `fn {d['name']}`. -/")
        L.append(f"def {d['name']} : FunDef where")
        L.append('  params := [' + ', '.join(var(p) for p in ps) + ']')
        L.append('  body :=')
        L.append(pp(b, 2))
        L.append('')
    L.append('/-- The function table (src/parser.rs). -/\ndef defs : Fn → FunDef')
    for n in fnames: L.append(f'  | .{n} => {n}')
    L.append('\nend Verif.Program')
    open(os.path.join(OUT, 'Program.lean'), 'w').write('\n'.join(L) + '\n')
    print(len(progs), 'functions', len(ks), 'kws', len(kl), 'keys', len(nts), 'types', len(vars_), 'vars')

if __name__ == '__main__': main()
