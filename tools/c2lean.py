#!/usr/bin/env python3
"""Print the C sources of the stack as Lean terms (lean/Verif/Code/*.lean).

    python3 tools/c2lean.py [/repo]

A tokeniser, a preprocessor (object- and function-like macros, local includes) and a recursive-descent parser for the subset of C used in
src/*.c, src/region/*.c, src/ext/*.c and src/device/sx127x.c. Anything outside the subset is an error. What the tool decides by itself: macro expansion, which names are local
and which are global, `sizeof`, the decay of arrays, the order of enum constants, and that a `switch` whose cases all end in
`break` or `return` is a chain of comparisons. `-x` is printed as `0 - x`. Functions in SKIP are left out.
"""
import os, re, sys

ROOT = sys.argv[1] if len(sys.argv) > 1 else '/repo'
OUT = os.path.join(os.path.dirname(os.path.abspath(__file__)), '..', 'lean', 'Verif', 'Code')

FILES = [('Utils', 'src/utils.c'), ('Channels', 'src/channels.c'), ('RegionCommon', 'src/region/common.c'), ('RegionEu868', 'src/region/eu868.c'),
         ('RegionRu864', 'src/region/ru864.c'), ('Adr', 'src/adr.c'), ('Mac', 'src/mac.c'), ('Stack', 'src/stack.c'),
         ('ClockSync', 'src/ext/clock_sync.c')]
DRIVERS = [('Sx127x','src/device/sx127x.c')]
# written with 64-bit integers, which the semantics does not have
SKIP = ['sx127x_set_freq']

TOK = re.compile(r'\s+|//[^\n]*|/\*.*?\*/|(?P<num>0[xX][0-9a-fA-F]+|\d+)|(?P<id>[A-Za-z_]\w*)|'
                 r'(?P<op>->|\+\+|--|<<=|>>=|<<|>>|<=|>=|==|!=|&&|\|\||\+=|-=|\*=|/=|%=|&=|\|=|\^=|[-+*/%&|^~!<>=?:;,.(){}\[\]])', re.S)


class Tok:
    def __init__(self, kind, text, line):
        self.kind, self.text, self.line = kind, text, line

    def __repr__(self):
        return f'{self.text}@{self.line}'


def lex(s, line):
    out, pos = [], 0
    while pos < len(s):
        m = TOK.match(s, pos)
        if not m:
            raise SyntaxError(f'line {line}: {s[pos:pos+20]!r}')
        if m.lastgroup:
            out.append(Tok(m.lastgroup, m.group(), line))
        line += m.group().count('\n')
        pos = m.end()
    return out


class Pre:
    """The preprocessor."""

    def __init__(self):
        self.macros, self.seen = {}, set()

    def file(self, path):
        path = os.path.normpath(path)
        if path in self.seen:
            return []
        self.seen.add(path)
        text = open(path).read()
        text = re.sub(r'/\*.*?\*/', lambda m: ' ' + '\n' * m.group().count('\n'), text, flags=re.S)
        out, lines, i, chunk, start = [], text.split('\n'), 0, [], 1

        def flush():
            if chunk:
                out.extend(self.expand(lex('\n'.join(chunk), start), set()))
                chunk.clear()
        while i < len(lines):
            l = lines[i]
            if l.lstrip().startswith('#'):
                flush()
                while l.rstrip().endswith('\\'):
                    i += 1
                    l = l.rstrip()[:-1] + ' ' + lines[i]
                out += self.directive(l.strip(), os.path.dirname(path))
                i += 1
                start = i + 1
            else:
                chunk.append(l)
                i += 1
        flush()
        return out

    def directive(self, l, here):
        m = re.match(r'#\s*include\s*([<"])([^>"]+)[>"]', l)
        if m:
            for d in (here, os.path.join(ROOT, 'include')):
                p = os.path.join(d, m.group(2))
                if os.path.exists(p):
                    return self.file(p)
            assert m.group(2) in ('stddef.h', 'stdint.h', 'stdbool.h', 'string.h', 'stdlib.h'), l
            return []
        m = re.match(r'#\s*define\s+(\w+)(\(([^)]*)\))?(.*)$', l)
        if m:
            params = [x.strip() for x in m.group(3).split(',')] if m.group(2) else None
            self.macros[m.group(1)] = (params, lex(m.group(4), 0))
            return []
        # include guards only
        assert re.match(r'#\s*(ifndef\s+__\w+|endif)', l), l
        return []

    def expand(self, toks, hide):
        out, i = [], 0
        while i < len(toks):
            t = toks[i]
            if t.kind != 'id' or t.text not in self.macros or t.text in hide:
                out.append(t)
                i += 1
                continue
            params, body = self.macros[t.text]
            if params is None:
                out += self.expand([Tok(b.kind, b.text, t.line) for b in body], hide | {t.text})
                i += 1
                continue
            assert toks[i + 1].text == '(', t
            depth, j, args = 0, i + 1, [[]]
            while True:
                x = toks[j]
                if x.text == '(':
                    depth += 1
                    if depth > 1:
                        args[-1].append(x)
                elif x.text == ')':
                    depth -= 1
                    if depth == 0:
                        break
                    args[-1].append(x)
                elif x.text == ',' and depth == 1:
                    args.append([])
                else:
                    args[-1].append(x)
                j += 1
            assert len(args) == len(params), t
            sub = dict(zip(params, [self.expand(a, hide) for a in args]))
            new = []
            for b in body:
                new += [Tok(s.kind, s.text, t.line) for s in sub[b.text]] if b.text in sub else [Tok(b.kind, b.text, t.line)]
            out += self.expand(new, hide | {t.text})
            i = j + 1
        return out


# types: ('int', 'u8') | ('ptr', t) | ('arr', t, n) | ('struct', name) | ('fn', t) | ('void',)
INTS = {'uint8_t': 'u8', 'int8_t': 'i8', 'uint16_t': 'u16', 'int16_t': 'i16', 'uint32_t': 'u32', 'int32_t': 'i32', 'int': 'i32', 'bool': 'bool',
        'size_t': 'u32'}
SIZE = {'u8': 1, 'i8': 1, 'bool': 1, 'u16': 2, 'i16': 2, 'u32': 4, 'i32': 4}
I32, U32 = ('int', 'i32'), ('int', 'u32')
BIN = [['||'], ['&&'], ['|'], ['^'], ['&'], ['==', '!='], ['<', '>', '<=', '>='], ['<<', '>>'], ['+', '-'], ['*', '/', '%']]
NAME = {'|': 'or', '^': 'xor', '&': 'and', '==': 'eq', '!=': 'ne', '<': 'lt', '>': 'gt', '<=': 'le', '>=': 'ge', '<<': 'shl', '>>': 'shr',
        '+': 'add', '-': 'sub', '*': 'mul', '/': 'div', '%': 'mod'}


class World:
    """What is shared between the files: structures, enum constants, global variables, functions."""

    def __init__(self):
        self.structs, self.enums, self.glob, self.init, self.funs, self.order = {}, {}, {}, {}, {}, []


class Parser:
    def __init__(self, w, toks, fname):
        self.w, self.t, self.i, self.fname, self.locals, self.out = w, toks, 0, fname, None, []

    # -- tokens
    def peek(self, k=0):
        return self.t[self.i + k].text if self.i + k < len(self.t) else None

    def kind(self, k=0):
        return self.t[self.i + k].kind if self.i + k < len(self.t) else None

    def next(self):
        self.i += 1
        return self.t[self.i - 1].text

    def take(self, s):
        if self.peek() == s:
            self.i += 1
            return True
        return False

    def need(self, s):
        assert self.peek() == s, f'{self.fname}:{self.t[self.i].line}: expected {s}, got {self.t[self.i-2:self.i+5]}'
        self.i += 1

    # -- types
    def is_type(self, k=0):
        return self.peek(k) in INTS or self.peek(k) in ('void', 'struct', 'enum', 'const', 'static', 'extern')

    def base(self):
        t = None
        while True:
            x = self.peek()
            if x in ('const', 'static', 'extern'):
                self.next()
            elif t is None and x in INTS:
                self.next()
                t = ('int', INTS[x])
            elif t is None and x == 'void':
                self.next()
                t = ('void',)
            elif t is None and x == 'enum':
                self.next()
                if self.kind() == 'id':
                    self.next()
                if self.take('{'):
                    n = 0
                    while not self.take('}'):
                        c = self.next()
                        if self.take('='):
                            n = self.const(self.expr_tree(2))
                        assert self.w.enums.get(c, n) == n
                        self.w.enums[c] = n
                        n += 1
                        self.take(',')
                t = U32
            elif t is None and x == 'struct':
                self.next()
                name = self.next() if self.kind() == 'id' else f'anon{self.t[self.i].line}'
                if self.take('{'):
                    fs = []
                    while not self.take('}'):
                        b = self.base()
                        while True:
                            n, ty = self.declarator(b)
                            fs.append((n, ty))
                            if not self.take(','):
                                break
                        self.need(';')
                    assert self.w.structs.get(name, fs) == fs
                    self.w.structs[name] = fs
                t = ('struct', name)
            else:
                return t

    def declarator(self, t):
        while self.take('*'):
            self.take('const')
            t = ('ptr', t)
        if self.peek() == '(' and self.peek(1) == '*':
            self.next()
            self.next()
            name = self.next()
            self.need(')')
            self.params()
            return name, ('ptr', ('fn', t))
        name = self.next() if self.kind() == 'id' else None
        if self.take('['):
            n = None if self.peek() == ']' else self.const(self.expr_tree(2))
            self.need(']')
            t = ('arr', t, n)
        return name, t

    def params(self):
        self.need('(')
        ps = []
        while not self.take(')'):
            b = self.base()
            n, t = self.declarator(b)
            if t[0] == 'arr':
                t = ('ptr', t[1])
            if t != ('void',):
                ps.append((n, t))
            self.take(',')
        return ps

    def size(self, t):
        if t[0] == 'int':
            return SIZE[t[1]]
        if t[0] == 'ptr':
            return 4
        if t[0] == 'arr':
            return t[2] * self.size(t[1])
        if t[0] == 'struct':
            n = a = 0
            for _, f in self.w.structs[t[1]]:
                al = self.size(f[1]) if f[0] == 'arr' else self.size(f)
                n = (n + al - 1) // al * al + self.size(f)
                a = max(a, al)
            return (n + a - 1) // a * a
        raise TypeError(t)

    # -- expressions as trees
    def expr_tree(self, lvl=0):
        if lvl == 0:
            e = self.expr_tree(1)
            assert self.peek() != ',' or self.locals is None or self.in_list, 'comma'
            return e
        if lvl == 1:
            l = self.expr_tree(2)
            op = self.peek()
            if op == '=':
                self.next()
                return ('asg', l, self.expr_tree(1))
            if op and op.endswith('=') and op[:-1] in NAME and op not in ('==', '!=', '<=', '>='):
                self.next()
                return ('asgop', op[:-1], l, self.expr_tree(1))
            return l
        if lvl == 2:
            c = self.binary(0)
            if self.take('?'):
                a = self.expr_tree(1)
                self.need(':')
                return ('cond', c, a, self.expr_tree(2))
            return c

    def binary(self, k):
        if k == len(BIN):
            return self.unary()
        a = self.binary(k + 1)
        while self.peek() in BIN[k]:
            op = self.next()
            a = ('bin', op, a, self.binary(k + 1))
        return a

    def unary(self):
        if self.peek() in ('!', '~', '&', '*', '-'):
            op = self.next()
            return ('un', op, self.unary())
        if self.peek() == 'sizeof':
            self.next()
            self.need('(')
            if self.is_type():
                _, t = self.declarator(self.base())
                self.need(')')
                return ('num', self.size(t), U32)
            e = self.expr_tree(1)
            self.need(')')
            return ('sizeof', e)
        if self.peek() == '(' and self.is_type(1):
            self.next()
            _, t = self.declarator(self.base())
            self.need(')')
            return ('cast', t, self.unary())
        e = self.primary()
        while True:
            if self.take('['):
                i = self.expr_tree(1)
                self.need(']')
                e = ('idx', e, i)
            elif self.take('('):
                args = []
                while not self.take(')'):
                    args.append(self.expr_tree(1))
                    self.take(',')
                e = ('call', e, args)
            elif self.take('.'):
                e = ('fld', e, self.next())
            elif self.take('->'):
                e = ('fld', ('un', '*', e), self.next())
            elif self.peek() in ('++', '--'):
                e = ('post', self.next(), e)
            else:
                return e

    def primary(self):
        if self.take('('):
            e = self.expr_tree(1)
            self.need(')')
            return e
        if self.kind() == 'num':
            s = self.next()
            n = int(s, 0)
            assert n < 2 ** 32
            return ('num', n, I32 if n < 2 ** 31 else U32)
        assert self.kind() == 'id', self.t[self.i]
        x = self.next()
        if x in ('true', 'false'):
            return ('num', int(x == 'true'), I32)
        if x == 'NULL':
            return ('null',)
        return ('var', x)

    def const(self, e):
        if e[0] == 'num':
            return e[1]
        if e[0] == 'var':
            return self.w.enums[e[1]]
        if e[0] == 'bin':
            a, b = self.const(e[2]), self.const(e[3])
            return {'+': a + b, '*': a * b, '/': b and a // b, '%': b and a % b, '<<': a << b, '-': a - b}[e[1]]
        if e[0] == 'cond':
            return self.const(e[2] if self.const(e[1]) else e[3])
        raise SyntaxError(e)

    # -- translation: lv gives (term, type) of a place, rv of a value; arrays decay
    def lv(self, e):
        if e[0] == 'var':
            if self.locals is not None and e[1] in self.locals:
                return f'.loc "{e[1]}"', self.locals[e[1]]
            return f'.glob "{e[1]}"', self.w.glob[e[1]]
        if e[0] == 'idx':
            p, t = self.rv(e[1])
            assert t[0] == 'ptr'
            return f'.elem ({p}) ({self.rv(e[2])[0]})', t[1]
        if e[0] == 'un' and e[1] == '*':
            p, t = self.rv(e[2])
            assert t[0] == 'ptr'
            return f'.elem ({p}) (.lit .i32 0)', t[1]
        if e[0] == 'fld':
            p, t = self.lv(e[1])
            assert t[0] == 'struct', (e, t)
            m = re.fullmatch(r'\.(loc|glob) "([^"]*)"', p)
            q = f'.{m.group(1)} "{m.group(2)}.{e[2]}"' if m else f'.fld ({p}) ".{e[2]}"'
            return q, dict(self.w.structs[t[1]])[e[2]]
        raise SyntaxError(e)

    def rv(self, e):
        k = e[0]
        if k == 'num':
            return f'.lit .{e[2][1]} {e[1]}', e[2]
        if k == 'null':
            return '.null', ('ptr', ('void',))
        if k == 'var' and e[1] in self.w.enums:
            return f'.lit .i32 {self.w.enums[e[1]]}', I32
        if k == 'var' and not (self.locals is not None and e[1] in self.locals) and e[1] not in self.w.glob:
            assert e[1] in self.w.funs or e[1] in ('rand', 'srand', 'memcpy', 'memset', 'memcmp'), e
            return f'.fn "{e[1]}"', ('ptr', ('fn', self.w.funs[e[1]] if e[1] in self.w.funs else I32))
        if k in ('var', 'idx', 'fld') or (k == 'un' and e[1] == '*'):
            l, t = self.lv(e)
            if t[0] == 'arr':
                return f'.addr ({l})', ('ptr', t[1])
            assert t[0] in ('int', 'ptr'), (e, t)
            return f'.load ({l})', t
        if k == 'sizeof':
            try:
                t = self.lv(e[1])[1]
            except SyntaxError:
                t = self.rv(e[1])[1]
            return f'.lit .u32 {self.size(t)}', U32
        if k == 'cast' and e[1][0] == 'ptr':
            p, t = self.rv(e[2])
            assert t == ('ptr', ('void',)), e
            return p, e[1]
        if k == 'cast':
            assert e[1][0] == 'int', e
            return f'.cast .{e[1][1]} ({self.rv(e[2])[0]})', e[1]
        if k == 'un':
            if e[1] == '&':
                l, t = self.lv(e[2])
                return f'.addr ({l})', ('ptr', t)
            a, _ = self.rv(e[2])
            if e[1] == '-':
                return f'.bin .sub (.lit .i32 0) ({a})', I32
            return (f'.not ({a})' if e[1] == '!' else f'.bnot ({a})'), I32
        if k == 'bin':
            (a, t), (b, u) = self.rv(e[2]), self.rv(e[3])
            if e[1] in ('&&', '||'):
                return f'.{"and" if e[1] == "&&" else "or"} ({a}) ({b})', I32
            # the type only matters for sizeof (never applied to these) and for pointers
            return f'.bin .{NAME[e[1]]} ({a}) ({b})', t if t[0] == 'ptr' and u[0] != 'ptr' else I32
        if k == 'cond':
            (a, t), b = self.rv(e[2]), self.rv(e[3])[0]
            return f'.cond ({self.rv(e[1])[0]}) ({a}) ({b})', t
        if k == 'asg':
            l, t = self.lv(e[1])
            return f'.asg ({l}) ({self.rv(e[2])[0]})', t
        if k == 'asgop':
            l, t = self.lv(e[2])
            return f'.asgOp .{NAME[e[1]]} ({l}) ({self.rv(e[3])[0]})', t
        if k == 'post':
            l, t = self.lv(e[2])
            return f'.post .{"add" if e[1] == "++" else "sub"} ({l})', t
        if k == 'call':
            f, t = self.rv(e[1])
            assert t[0] == 'ptr' and t[1][0] == 'fn', e
            args = '.nil'
            for a in reversed(e[2]):
                args = f'.cons ({self.rv(a)[0]}) ({args})'
            return f'.call ({f}) ({args})', t[1][1]
        raise SyntaxError(e)

    # -- statements: lists of (indent-free) terms
    def seq(self, l):
        l = [x for x in l if x != '.skip'] or ['.skip']
        return l[0] if len(l) == 1 else f'.seq ({l[0]})\n({self.seq(l[1:])})'

    def cells(self, t, zero):
        """The objects making up a variable: (suffix, cells)."""
        if t[0] == 'int':
            return [('', [f'.int .{t[1]} 0' if zero else f'.uninit (some .{t[1]})'])]
        if t[0] == 'ptr':
            return [('', ['.null' if zero else '.uninit none'])]
        if t[0] == 'arr':
            return [(s, c * t[2]) for s, c in self.cells(t[1], zero)]
        if t[0] == 'struct':
            return [(f'.{n}{s}', c) for n, f in self.w.structs[t[1]] for s, c in self.cells(f, zero)]
        raise TypeError(t)

    @staticmethod
    def cell_list(c):
        if len(c) > 1 and len(set(c)) == 1:
            return f'List.replicate {len(c)} ({c[0]})'
        return '[' + ', '.join(c) + ']'

    def local_decl(self):
        b = self.base()
        out = []
        while True:
            n, t = self.declarator(b)
            init = self.init_tree() if self.take('=') else None
            if t[0] == 'arr' and t[2] is None:
                t = ('arr', t[1], len(init[1]))
            assert self.locals.get(n, t) == t, n
            self.locals[n] = t
            z = init == ('list', [('num', 0, I32)]) and t[0] == 'struct'
            for s, c in self.cells(t, z):
                out.append(f'.decl "{n}{s}" ({self.cell_list(c)})')
            if init and init[0] == 'list' and not z:
                assert t[0] == 'arr'
                for k, e in enumerate(init[1]):
                    out.append(f'.expr (.asg (.elem (.addr (.loc "{n}")) (.lit .i32 {k})) ({self.rv(e)[0]}))')
            elif init and not z:
                out.append(f'.expr (.asg (.loc "{n}") ({self.rv(init)[0]}))')
            if not self.take(','):
                break
        self.need(';')
        return out

    def init_tree(self):
        if self.take('{'):
            l = []
            while not self.take('}'):
                if self.peek() == '.' and self.kind(1) == 'id':
                    self.next()
                    n = self.next()
                    self.need('=')
                    l.append(('field', n, self.init_tree()))
                else:
                    l.append(self.init_tree())
                self.take(',')
            return ('list', l)
        return self.expr_tree(1)

    def body(self):
        """A statement or a block, as a list of terms."""
        if self.take('{'):
            l = []
            while not self.take('}'):
                l += self.stmt()
            return l
        return self.stmt()

    def stmt(self):
        x = self.peek()
        if x == '{':
            return self.body()
        if self.take(';'):
            return []
        if self.is_type():
            return self.local_decl()
        if self.take('return'):
            if self.take(';'):
                return ['.ret']
            e = self.rv(self.expr_tree(1))[0]
            self.need(';')
            return [f'.retVal ({e})']
        if self.take('break'):
            self.need(';')
            return ['.brk']
        if self.take('if'):
            self.need('(')
            c = self.rv(self.expr_tree(1))[0]
            self.need(')')
            a = self.seq(self.body())
            b = self.seq(self.body()) if self.take('else') else '.skip'
            return [f'.ite ({c})\n({a})\n({b})']
        if self.take('while'):
            self.need('(')
            c = self.rv(self.expr_tree(1))[0]
            self.need(')')
            return [f'.loop ({c}) .skip\n({self.seq(self.body())})']
        if self.take('do'):
            b = self.seq(self.body())
            self.need('while')
            self.need('(')
            c = self.rv(self.expr_tree(1))[0]
            self.need(')')
            self.need(';')
            return [f'.doWhile\n({b})\n({c})']
        if self.take('for'):
            self.need('(')
            init = [] if self.take(';') else self.local_decl()
            c = self.rv(self.expr_tree(1))[0]
            self.need(';')
            step = []
            while not self.take(')'):
                step.append(f'.expr ({self.rv(self.expr_tree(1))[0]})')
                self.take(',')
            return init + [f'.loop ({c}) ({self.seq(step)})\n({self.seq(self.body())})']
        if self.take('switch'):
            return [self.switch()]
        e = self.expr_tree(1)
        self.need(';')
        if e[0] == 'call' and e[1] == ('var', 'memset') and e[2][0][0] == 'un':
            # memset of a structure
            n, t = self.lv(e[2][0][2])
            assert t[0] == 'struct' and e[2][1] == ('num', 0, I32) and e[2][2] == ('sizeof', e[2][0][2]) and n.startswith('.glob "')
            return ['.zero [' + ', '.join(n[:-1] + s + '"' for s, _ in self.cells(t, True)) + ']']
        return [f'.expr ({self.rv(e)[0]})']

    def switch(self):
        self.need('(')
        e = self.expr_tree(1)
        self.need(')')
        assert e[0] == 'var'
        self.need('{')
        cases = []
        while not self.take('}'):
            if self.take('default'):
                c = None
            else:
                self.need('case')
                c = self.rv(self.expr_tree(2))[0]
            self.need(':')
            b = []
            while self.peek() not in ('case', 'default', '}'):
                b += self.stmt()
            assert b[-1] == '.brk' or b[-1].startswith('.retVal'), 'fall through'
            cases.append((c, self.seq(b)))
        assert cases[-1][0] is None and all(c for c, _ in cases[:-1])
        r = cases[-1][1]
        for c, b in reversed(cases[:-1]):
            r = f'.ite (.bin .eq ({self.rv(e)[0]}) ({c}))\n({b})\n({r})'
        return f'.block\n({r})'

    # -- top level
    def static_cells(self, t, init):
        z = self.cells(t, True)
        if init is None:
            return z
        if t[0] == 'arr':
            n = t[2]
            el = [self.static_cells(t[1], init[1][k] if k < len(init[1]) else None) for k in range(n)]
            return [(el[0][j][0], [x for e in el for x in e[j][1]]) for j in range(len(el[0]))]
        if t[0] == 'struct':
            out = []
            vals = {}
            for k, (n, f) in enumerate(self.w.structs[t[1]]):
                if init[1] and k < len(init[1]) and init[1][k][0] != 'field':
                    vals[n] = init[1][k]
            for x in init[1]:
                if x[0] == 'field':
                    vals[x[1]] = x[2]
            for n, f in self.w.structs[t[1]]:
                out += [(f'.{n}{s}', c) for s, c in self.static_cells(f, vals.get(n))]
            return out
        if t[0] == 'ptr':
            assert init[0] == 'var' and init[1] in self.w.funs
            return [('', [f'.fn "{init[1]}"'])]
        return [('', [f'.int .{t[1]} {self.const(init)}'])]

    def unit(self):
        while self.i < len(self.t):
            line = self.t[self.i].line
            extern = self.peek() == 'extern'
            b = self.base()
            if self.take(';'):
                continue
            n, t = self.declarator(b)
            if self.peek() == '(':
                self.w.funs.setdefault(n, t)
                save, ps = self.i, self.params()
                if self.take(';'):
                    continue
                self.locals = dict(ps)
                self.need('{')
                if n in SKIP:
                    depth = 1
                    while depth:
                        depth += {'{': 1, '}': -1}.get(self.next(), 0)
                    self.locals = None
                    continue
                body = []
                while not self.take('}'):
                    body += self.stmt()
                end = self.t[self.i - 1].line
                pt = ', '.join(f'("{x}", {"some ." + y[1] if y[0] == "int" else "none"})' for x, y in ps)
                rt = f'some .{t[1]}' if t[0] == 'int' else 'none'
                self.out.append(('fun', n, line, end, pt, rt, self.seq(body)))
                assert n not in self.w.order
                self.w.order.append(n)
                self.locals = None
                continue
            init = self.init_tree() if self.take('=') else None
            self.need(';')
            if t[0] == 'arr' and t[2] is None:
                t = ('arr', t[1], len(init[1]))
            self.w.glob[n] = t
            if not extern:
                assert n not in self.w.init, n
                self.w.init[n] = True
                self.out.append(('var', n, line, [(n + s, c) for s, c in self.static_cells(t, init)]))


def indent(term):
    """Lay a term out by the depth of its parentheses at line starts."""
    out, depth = [], 2
    for l in term.split('\n'):
        out.append('  ' * depth + l)
        depth += l.count('(') - l.count(')')
    return '\n'.join(out)


def emit(w, name, path, ns):
    """Print one file."""
    p = Parser(w, Pre().file(os.path.join(ROOT, path)), path)
    p.in_list = False
    p.unit()
    o = ['import Verif.Code.Sem', '', f'/-! Printed by `tools/c2lean.py` from `{path}`; do not edit. -/', '', f'namespace {ns}', '']
    vs = [x for x in p.out if x[0] == 'var']
    fs = [x for x in p.out if x[0] == 'fun']
    low = name[0].lower() + name[1:]
    o.append(f'/-- The variables of {path}, as they start. -/')
    o.append(f'def {low}Vars : Objs := [')
    rows = [f'  ("{n}", {p.cell_list(c)})' for v in vs for n, c in v[3]]
    o.append(',\n'.join(rows) + ']')
    o.append('')
    for _, n, a, b, pt, rt, body in fs:
        o.append(f'/-- {path}:{a}-{b} -/')
        o.append(f'def {n} : Fun where\n  params := [{pt}]\n  result := {rt}\n  body :=\n{indent(body)}')
        o.append('')
    o.append(f'/-- The functions of {path}. -/')
    o.append(f'def {low}Funs : Program := [')
    o.append(',\n'.join(f'  ("{n}", {n})' for _, n, *_ in fs) + ']')
    o.append('')
    o.append(f'end {ns}')
    open(os.path.join(OUT, name + '.lean'), 'w').write('\n'.join(o) + '\n')


def main():
    w = World()
    os.makedirs(OUT, exist_ok=True)
    for name, path in FILES:
        emit(w, name, path, 'Uwan.C.Src')
    mods = [name for name, _ in FILES]
    o = [f'import Verif.Code.{m}' for m in mods]
    o += ['', '/-! Printed by `tools/c2lean.py`; do not edit. -/', '', 'namespace Uwan.C.Src', '', '/-- All variables of the stack, as they start. -/',
          'def vars : Objs := ' + ' ++ '.join(f'{m[0].lower()}{m[1:]}Vars' for m in mods), '', '/-- All functions of the stack. -/',
          'def prog : Program := ' + ' ++ '.join(f'{m[0].lower()}{m[1:]}Funs' for m in mods), '', 'end Uwan.C.Src', '']
    open(os.path.join(OUT, 'All.lean'), 'w').write('\n'.join(o))
    # a driver is a program of its own
    for name, path in DRIVERS:
        emit(World(), name, path, f'Uwan.C.{name}Src')


main()
