"""A parser for the subset of Rust used in /repo/src/parser.rs.

Produces nested tuples; every statement carries its source line.
"""
import re, sys

TOK = re.compile(r'''
  (?P<ws>\s+|//[^\n]*)
 |(?P<str>"(?:\\.|[^"\\])*")
 |(?P<char>'(?:\\.|[^'\\])')
 |(?P<life>'[a-z_]+)
 |(?P<num>[0-9]+(?:usize)?)
 |(?P<id>[A-Za-z_][A-Za-z0-9_]*)
 |(?P<op>::|->|=>|==|!=|<=|>=|&&|\|\||\+=|-=|\.\.=|\.\.|[-+*/%<>=!&|?.,;:(){}\[\]#])
''', re.X)

class Tok:
    __slots__ = ('k', 'v', 'line')
    def __init__(self, k, v, line): self.k, self.v, self.line = k, v, line
    def __repr__(self): return f'{self.v}@{self.line}'

def lex(src):
    pos, line, out = 0, 1, []
    while pos < len(src):
        m = TOK.match(src, pos)
        if not m: raise SyntaxError(f'line {line}: {src[pos:pos+20]!r}')
        k = m.lastgroup
        if k != 'ws': out.append(Tok(k, m.group(), line))
        line += m.group().count('\n')
        pos = m.end()
    out.append(Tok('eof', '<eof>', line))
    return out

class P:
    def __init__(self, toks): self.t, self.i = toks, 0
    def peek(self, o=0): return self.t[self.i + o]
    def at(self, *vs): return self.peek().v in vs and self.peek().k not in ('str', 'char')
    def nxt(self):
        x = self.t[self.i]; self.i += 1; return x
    def eat(self, v):
        x = self.nxt()
        if x.v != v: raise SyntaxError(f'line {x.line}: expected {v} got {x.v}')
        return x
    # ---- items
    def file(self):
        fns = []
        while not self.at('impl'): self.nxt()
        self.eat('impl'); self.eat('Parser'); self.eat('{')
        while not self.at('}'):
            fns.append(self.fn())
        return fns
    def fn(self):
        line = self.peek().line
        if self.at('pub'): self.nxt()
        self.eat('fn'); name = self.nxt().v
        self.eat('(')
        params = []
        while not self.at(')'):
            if self.at('&'):
                self.nxt()
                if self.at('mut'): self.nxt()
                self.eat('self')
            elif self.at('mut') and self.peek(1).v == 'self':
                self.nxt(); self.nxt()
            else:
                mut = False
                if self.at('mut'): self.nxt(); mut = True
                n = self.nxt().v; self.eat(':')
                params.append((n, self.type_()))
            if self.at(','): self.nxt()
        self.eat(')')
        ret = 'unit'
        if self.at('->'): self.nxt(); ret = self.type_()
        body = self.block()
        end = self.t[self.i - 1].line
        return dict(name=name, params=params, ret=ret, body=body, line=line, end=end)
    def type_(self):
        s = ''
        if self.at('&'): self.nxt(); s = '&'; 
        if self.at('mut'): self.nxt()
        if self.at('('):
            self.nxt(); self.eat(')'); return s + '()'
        s += self.nxt().v
        while self.at('::'): self.nxt(); s += '::' + self.nxt().v
        if self.at('<'):
            self.nxt(); s += '<' + self.type_()
            while self.at(','): self.nxt(); s += ',' + self.type_()
            self.eat('>'); s += '>'
        return s
    # ---- statements
    def block(self):
        self.eat('{'); out = []
        while not self.at('}'):
            out.append(self.stmt())
        self.eat('}')
        return out
    def stmt(self):
        line = self.peek().line
        if self.at('fn'):
            return ('fn', line, self.fn())
        if self.at('let'):
            self.nxt()
            if self.at('mut'): self.nxt()
            n = self.nxt().v; ty = None
            if self.at(':'): self.nxt(); ty = self.type_()
            e = None
            if self.at('='): self.nxt(); e = self.expr()
            self.eat(';')
            return ('let', line, n, ty, e)
        if self.at(';'):
            self.nxt(); return ('nop', line)
        if self.at('if', 'match', 'while', 'loop', 'for') or self.peek().k == 'life':
            e = self.primary(False)
        else:
            e = self.expr()
        blocky = e[0] in ('if', 'match', 'while', 'loop', 'for', 'whilelet', 'block')
        if self.at('=', '+='):
            op = self.nxt().v; r = self.expr(); 
            if self.at(';'): self.nxt()
            return ('assign', line, op, e, r)
        if self.at(';'):
            self.nxt(); return ('expr', line, e, True)
        if self.at('}'):
            return ('expr', line, e, False)   # tail expression
        if blocky: return ('expr', line, e, True)
        raise SyntaxError(f'line {line}: statement end, got {self.peek()}')
    # ---- expressions
    def expr(self, nostruct=False): return self.or_(nostruct)
    def or_(self, ns):
        a = self.and_(ns)
        while self.at('||'):
            self.nxt(); a = ('or', a, self.and_(ns))
        return a
    def and_(self, ns):
        a = self.cmp(ns)
        while self.at('&&'):
            self.nxt(); a = ('and', a, self.cmp(ns))
        return a
    def cmp(self, ns):
        a = self.range_(ns)
        while self.at('==', '!=', '<', '>', '<=', '>='):
            op = self.nxt().v; a = ('cmp', op, a, self.range_(ns))
        return a
    def range_(self, ns):
        a = self.add(ns)
        if self.at('..', '..='):
            op = self.nxt().v
            if self.at('{', ')', ']'): return ('range', a, None)
            a = ('range', a, self.add(ns))
        return a
    def add(self, ns):
        a = self.unary(ns)
        while self.at('+', '-'):
            op = self.nxt().v; a = ('arith', op, a, self.unary(ns))
        return a
    def unary(self, ns):
        if self.at('!'): self.nxt(); return ('not', self.unary(ns))
        if self.at('&'):
            self.nxt()
            if self.at('mut'): self.nxt()
            return ('ref', self.unary(ns))
        if self.at('*'): self.nxt(); return ('deref', self.unary(ns))
        return self.postfix(ns)
    def args(self):
        self.eat('('); out = []
        while not self.at(')'):
            out.append(self.expr())
            if self.at(','): self.nxt()
        self.eat(')'); return out
    def postfix(self, ns):
        e = self.primary(ns)
        while True:
            if self.at('?'): self.nxt(); e = ('try', e)
            elif self.at('.'):
                self.nxt(); n = self.nxt().v
                if self.at('('): e = ('mcall', e, n, self.args())
                else: e = ('field', e, n)
            elif self.at('('): e = ('call', e, self.args())
            elif self.at('['):
                self.nxt(); x = self.expr(); self.eat(']'); e = ('index', e, x)
            else: return e
    def pattern(self):
        def one():
            x = self.peek()
            if x.k == 'str': self.nxt(); return ('str', x.v[1:-1])
            if x.k == 'char':
                self.nxt()
                if self.at('..='):
                    self.nxt(); y = self.nxt(); return ('crange', x.v, y.v)
                return ('char', x.v)
            if x.k == 'num': self.nxt(); return ('num', int(x.v))
            if x.v == '_': self.nxt(); return ('wild',)
            if x.v == 'mut': self.nxt()
            n = self.nxt().v
            while self.at('::'): self.nxt(); n += '::' + self.nxt().v
            if self.at('('):
                self.nxt(); sub = self.pattern(); self.eat(')'); return ('ctor', n, sub)
            return ('pid', n)
        if self.at('|'): self.nxt()
        ps = [one()]
        while self.at('|'): self.nxt(); ps.append(one())
        return ps
    def primary(self, ns):
        x = self.peek(); line = x.line
        if x.k == 'str': self.nxt(); return ('str', x.v[1:-1])
        if x.k == 'char': self.nxt(); return ('char', x.v)
        if x.k == 'num': self.nxt(); return ('num', int(x.v.replace('usize', '')))
        if x.k == 'life':
            self.nxt(); self.eat(':')
            e = self.primary(ns); return e + (('label', x.v),)
        if x.v == '(':
            self.nxt()
            if self.at(')'): self.nxt(); return ('unit',)
            e = self.expr(); self.eat(')'); return ('paren', e)
        if x.v == '{': return ('block', line, self.block())
        if x.v == 'if':
            self.nxt()
            if self.at('let'):
                self.nxt(); pat = self.pattern(); self.eat('='); scrut = self.expr(True)
                c = ('letcond', pat, scrut)
            else:
                c = self.expr(True)
            th = self.block(); el = None
            if self.at('else'):
                self.nxt()
                if self.at('if'): el = [('expr', self.peek().line, self.primary(ns), True)]
                else: el = self.block()
            return ('if', line, c, th, el)
        if x.v == 'match':
            self.nxt(); sc = self.expr(True); self.eat('{'); arms = []
            while not self.at('}'):
                ps = self.pattern()
                guard = None
                if self.at('if'): self.nxt(); guard = self.expr()
                self.eat('=>')
                aline = self.peek().line
                if self.at('{'): body = ('block', aline, self.block())
                else:
                    body = self.expr()
                    if self.at('=', '+='):
                        op = self.nxt().v
                        body = ('block', aline, [('assign', aline, op, body, self.expr())])
                if self.at(','): self.nxt()
                arms.append((ps, guard, body, aline))
            self.eat('}')
            return ('match', line, sc, arms)
        if x.v == 'while':
            self.nxt()
            if self.at('let'):
                self.nxt(); pat = self.pattern(); self.eat('='); sc = self.expr(True)
                return ('whilelet', line, pat, sc, self.block())
            c = self.expr(True)
            return ('while', line, c, self.block())
        if x.v == 'loop': self.nxt(); return ('loop', line, self.block())
        if x.v == 'for':
            self.nxt(); n = self.nxt().v; self.eat('in'); it = self.expr(True)
            return ('for', line, n, it, self.block())
        if x.v == 'return':
            self.nxt()
            if self.at(';', '}', ','): return ('return', line, None)
            return ('return', line, self.expr())
        if x.v == 'break':
            self.nxt(); return ('break', line)
        if x.v == 'continue':
            self.nxt(); return ('continue', line)
        if x.k == 'id':
            n = self.nxt().v
            while self.at('::'): self.nxt(); n += '::' + self.nxt().v
            if self.at('!'):
                self.nxt()
                if self.at('['):
                    self.nxt(); xs = []
                    while not self.at(']'):
                        xs.append(self.expr())
                        if self.at(','): self.nxt()
                    self.eat(']'); return ('vec', xs)
                return ('macro', n, self.args())
            if self.at('{') and not ns and n[0].isupper():
                # struct literal
                self.nxt(); fs = []
                while not self.at('}'):
                    f = self.nxt().v; v = None
                    if self.at(':'): self.nxt(); v = self.expr()
                    fs.append((f, v))
                    if self.at(','): self.nxt()
                self.eat('}'); return ('struct', n, fs)
            if self.at('|'): pass
            return ('id', n)
        if x.v == '|':
            # closure
            self.nxt(); ps = [self.nxt().v]; self.eat('|')
            return ('closure', ps, self.expr())
        raise SyntaxError(f'line {line}: unexpected {x.v}')

def parse_file(path):
    return P(lex(open(path).read())).file()

if __name__ == '__main__':
    fns = parse_file(sys.argv[1])
    for f in fns: print(f['name'], f['line'], f['end'], f['params'], f['ret'])
