#!/usr/bin/env python3
"""Mechanical translation of the closed-form part of sandialabs/Polymers (Rust) into Lean 4.

Reads /repo/src as text, never builds or runs it.  Every Rust function becomes one Lean
definition of the same name, in a namespace named after the Rust module path, with a doc
comment citing the file and lines.  Rust `f64` becomes a type variable `α` (see
Verif/Base.lean), `u8`/`u128`/`usize` become `Nat`, `i32` becomes `Int`.

usage: rust2lean.py SRC_ROOT OUT_DIR
"""
import re, sys, os

SRC = sys.argv[1] if len(sys.argv) > 1 else '/repo/src'
OUT = sys.argv[2] if len(sys.argv) > 2 else '/verif/lean/Verif/Model'

TOK = re.compile(r'''
   (?P<ws>\s+)
 | (?P<com>//[^\n]*)
 | (?P<num>\d[\d_]*(?:\.(?!\.)[\d_]*)?(?:[eE][+-]?\d+)?(?:_?(?:f64|u8|u128|i32|usize))?)
 | (?P<str>"[^"]*")
 | (?P<id>[A-Za-z_][A-Za-z_0-9]*!?)
 | (?P<op>\.\.=|::|->|=>|==|!=|<=|>=|&&|\|\||\+=|-=|\*=|/=|\.\.|[-+*/&|!<>=.,;:(){}\[\]#%'])
''', re.X)

class Tok:
    __slots__ = ('k', 'v', 'line')
    def __init__(s, k, v, line): s.k, s.v, s.line = k, v, line
    def __repr__(s): return f'{s.k}:{s.v}@{s.line}'

def tokenize(text):
    pos, line, out = 0, 1, []
    while pos < len(text):
        m = TOK.match(text, pos)
        if not m: raise SyntaxError(f'line {line}: {text[pos:pos+40]!r}')
        k = m.lastgroup
        if k not in ('ws', 'com'):
            v = m.group()
            out.append(Tok(k, v, line))
        line += m.group().count('\n')
        pos = m.end()
    out.append(Tok('eof', '', line))
    return out

class P:
    def __init__(s, toks): s.t, s.i = toks, 0
    def peek(s, o=0): return s.t[min(s.i + o, len(s.t) - 1)]
    def at(s, v): return s.peek().v == v and s.peek().k != 'str'
    def next(s):
        x = s.t[s.i]; s.i += 1; return x
    def eat(s, v):
        if not s.at(v): raise SyntaxError(f'line {s.peek().line}: expected {v!r}, got {s.peek()}')
        return s.next()
    def opt(s, v):
        if s.at(v): s.next(); return True
        return False
    # ---- types
    def type(s):
        if s.opt('&'):
            s.opt('mut')
            return s.type()
        if s.opt('dyn'):
            s.eat('Fn'); s.eat('(')
            n = 0
            while not s.at(')'):
                s.type(); n += 1; s.opt(',')
            s.eat(')'); s.eat('->'); s.type()
            return ('fn', n)
        if s.opt('['):
            t = s.type()
            if s.opt(';'):
                d = 1
                while not s.at(']'): s.next()
            s.eat(']')
            return ('list', t)
        if s.opt('('):
            ts = []
            while not s.at(')'):
                ts.append(s.type()); s.opt(',')
            s.eat(')')
            return ('tuple', ts)
        parts = [s.next().v]
        while s.opt('::'):
            parts.append(s.next().v)
        if s.opt('<'):
            a = s.type(); s.eat('>')
            if parts[-1] == 'Vec': return ('list', a)
            return ('app', parts, a)
        if parts == ['f64']: return 'α'
        if parts in (['u8'], ['u128'], ['usize'], ['u32']): return 'Nat'
        if parts == ['i32']: return 'Int'
        return ('path', parts)
    # ---- expressions.  AST = tuples
    def expr(s): return s.logic()
    def logic(s):
        e = s.cmp()
        while s.peek().v in ('&&', '||'):
            o = s.next().v
            e = ('bin', o, e, s.cmp())
        return e
    def cmp(s):
        e = s.add()
        if s.peek().v in ('<', '>', '<=', '>=', '==', '!='):
            o = s.next().v
            e = ('bin', o, e, s.add())
        return e
    def add(s):
        e = s.mul()
        while s.peek().v in ('+', '-'):
            o = s.next().v
            e = ('bin', o, e, s.mul())
        return e
    def mul(s):
        e = s.cast()
        while s.peek().v in ('*', '/'):
            o = s.next().v
            e = ('bin', o, e, s.cast())
        return e
    def cast(s):
        e = s.unary()
        while s.opt('as'):
            e = ('as', e, s.type())
        return e
    def unary(s):
        if s.opt('-'): return ('neg', s.unary())
        if s.opt('*'): return s.unary()
        if s.opt('&'):
            s.opt('mut')
            return s.unary()
        if s.opt('!'): return ('not', s.unary())
        return s.postfix()
    def args(s):
        s.eat('(')
        a = []
        while not s.at(')'):
            a.append(s.expr())
            if not s.opt(','): break
        s.eat(')')
        return a
    def postfix(s):
        e = s.primary()
        while True:
            if s.at('.'):
                s.next()
                n = s.next().v
                if s.at('::'):          # turbofish
                    s.next(); s.eat('<'); d = 1
                    while d:
                        v = s.next().v
                        d += (v == '<') - (v == '>')
                if s.at('('):
                    e = ('method', e, n, s.args())
                else:
                    e = ('field', e, n)
            elif s.at('('):
                e = ('call', e, s.args())
            elif s.at('['):
                s.next(); i = s.expr(); s.eat(']')
                e = ('index', e, i)
            else:
                return e
    def block(s):
        s.eat('{')
        stmts = []
        while not s.at('}'):
            if s.opt('let'):
                s.opt('mut')
                n = s.next().v
                ty = None
                if s.opt(':'): ty = s.type()
                if s.opt('='):
                    e = s.expr(); s.eat(';')
                    stmts.append(('let', n, ty, e))
                else:
                    s.eat(';'); stmts.append(('decl', n, ty))
                continue
            e = s.expr()
            if s.at('=') :
                s.next(); v = s.expr(); s.eat(';')
                stmts.append(('set', e, v)); continue
            if s.opt(';'):
                stmts.append(('stmt', e)); continue
            if s.at('}'):
                stmts.append(('ret', e))
            else:
                stmts.append(('stmt', e))
        s.eat('}')
        return ('block', stmts)
    def primary(s):
        t = s.peek()
        if t.k == 'num':
            s.next(); return ('num', t.v)
        if t.k == 'str':
            s.next(); return ('str', t.v)
        if t.v == '(':
            s.next(); e = s.expr()
            if s.peek().v in ('..', '..='):
                incl = s.next().v == '..='
                e = ('range', e, s.expr(), incl); s.eat(')'); return e
            s.eat(')'); return ('paren', e)
        if t.v == '[':
            s.next(); xs = []
            while not s.at(']'):
                xs.append(s.expr()); s.opt(',')
            s.eat(']'); return ('array', xs)
        if t.v == '{': return s.block()
        if t.v == '|':
            s.next(); ps = []
            while not s.at('|'):
                n = s.next().v
                ty = s.type() if s.opt(':') else None
                ps.append((n, ty)); s.opt(',')
            s.eat('|')
            return ('closure', ps, s.expr())
        if t.v == 'if':
            s.next(); c = s.expr(); a = s.block(); b = None
            if s.opt('else'):
                b = s.primary() if s.at('if') else s.block()
            return ('if', c, a, b)
        if t.k == 'id':
            s.next()
            parts = [t.v]
            while s.at('::'):
                s.next()
                if s.opt('<'):
                    s.type(); s.eat('>')
                else:
                    parts.append(s.next().v)
            if t.v == 'panic!':
                s.args(); return ('panic',)
            if t.v == 'vec!':
                return s.primary()
            if s.at('{') and parts[-1][0].isupper() and not parts[-1].isupper() or \
               s.at('{') and parts[-1] in STRUCTS:
                s.eat('{'); fs = []
                while not s.at('}'):
                    n = s.next().v
                    e = s.expr() if s.opt(':') else ('path', [n])
                    fs.append((n, e)); s.opt(',')
                s.eat('}')
                return ('struct', parts, fs)
            return ('path', parts)
        raise SyntaxError(f'line {t.line}: unexpected {t}')

STRUCTS = {'IDEAL', 'FJC', 'EFJC', 'SWFJC', 'MORSEFJC', 'LENNARDJONESFJC', 'LOGSQUAREDFJC', 'WLC'}

class Module:
    pass

def parse_file(path):
    text = open(path).read()
    s = P(tokenize(text))
    m = Module()
    m.path, m.uses, m.consts, m.fns, m.structs, m.impls = path, {}, [], [], [], []
    rel = os.path.relpath(os.path.dirname(path), SRC)
    m.mod = [] if rel == '.' else rel.split('/')
    def use_tree(prefix):
        while True:
            if s.opt('{'):
                while not s.at('}'):
                    use_tree(prefix); s.opt(',')
                s.eat('}'); return
            n = s.next().v
            prefix = prefix + [n]
            if s.opt('::'): continue
            name = n
            if s.opt('as'): name = s.next().v
            m.uses[name] = prefix
            return
    def fn(owner=None):
        line0 = s.peek().line
        s.eat('fn'); name = s.next().v
        generic = False
        if s.opt('<'):
            generic = True
            while not s.at('>'): s.next()
            s.eat('>')
        s.eat('('); ps = []; selfarg = False
        while not s.at(')'):
            s.opt('&'); s.opt('mut')
            n = s.next().v
            if n == 'self': selfarg = True
            else:
                s.eat(':'); ps.append((n, s.type()))
            s.opt(',')
        s.eat(')')
        ret = s.type() if s.opt('->') else None
        save = s.i
        try:
            body = s.block()
        except SyntaxError as ex:
            # skip the body; the function needs a hand-written model
            s.i = save; d = 0
            while True:
                t = s.next()
                if t.v == '{': d += 1
                if t.v == '}':
                    d -= 1
                    if d == 0: break
            body = ('unsupported', str(ex))
        line1 = s.t[s.i - 1].line
        return dict(name=name, params=ps, ret=ret, body=body, self=selfarg,
                    l0=line0, l1=line1, generic=generic)
    while s.peek().k != 'eof':
        if s.opt('#'):
            s.opt('!'); s.eat('['); d = 1
            while d:
                t = s.next()
                if t.v == '[': d += 1
                if t.v == ']': d -= 1
            continue
        s.opt('pub')
        if s.opt('mod'):
            s.next(); s.eat(';')
        elif s.opt('use'):
            use_tree([]); s.eat(';')
        elif s.peek().v in ('static', 'const'):
            l = s.peek().line
            s.next(); n = s.next().v; s.eat(':'); ty = s.type(); s.eat('=')
            e = s.expr(); s.eat(';')
            m.consts.append((n, ty, e, l))
        elif s.at('fn'):
            m.fns.append(fn())
        elif s.at('struct'):
            l0 = s.next().line
            n = s.next().v; s.eat('{'); fs = []
            while not s.at('}'):
                s.opt('pub')
                fnm = s.next().v; s.eat(':'); fs.append((fnm, s.type())); s.opt(',')
            l1 = s.eat('}').line
            m.structs.append(dict(name=n, fields=fs, l0=l0, l1=l1))
        elif s.opt('impl'):
            n = s.next().v; s.eat('{')
            while not s.at('}'):
                s.opt('pub')
                m.impls.append((n, fn(n)))
            s.eat('}')
        else:
            raise SyntaxError(f'{path}:{s.peek().line}: {s.peek()}')
    return m

# ------------------------------------------------------------------ resolution
MODS = {}

def ns(mod):
    mod = [x for x in mod if x not in ('physics', 'single_chain')]
    return '.'.join(['Polymers'] + mod)

def resolve_path(mod, parts):
    """absolute (module list, item) of a Rust path used inside module `mod`."""
    cur = list(mod); parts = list(parts)
    if parts[0] == 'crate':
        cur = []; parts = parts[1:]
    while parts and parts[0] in ('self', 'super'):
        if parts[0] == 'super': cur = cur[:-1]
        parts = parts[1:]
    return cur + parts[:-1], parts[-1]

def defined(mod, name):
    m = MODS.get('/'.join(mod))
    if m is None: return False
    return any(f['name'] == name for f in m.fns) or any(c[0] == name for c in m.consts)

def lookup(mod, name):
    """qualified Lean name of free function / constant `name` seen from module `mod`."""
    for _ in range(8):
        if defined(mod, name): return ns(mod) + '.' + name
        m = MODS['/'.join(mod)]
        if name in m.uses:
            if m.uses[name][0] == 'std': return None
            mod, name = resolve_path(mod, m.uses[name])
        else:
            return None
    return None

# ------------------------------------------------------------------ emission
UN = {'exp': 'exp', 'ln': 'ln', 'log10': 'log10', 'sinh': 'sinh', 'cosh': 'cosh', 'tanh': 'tanh',
      'sqrt': 'sqrt', 'abs': 'abs', 'sin': 'sin', 'cos': 'cos', 'acos': 'acos', 'atanh': 'atanh', 'ceil': 'ceil'}

class Emit:
    def __init__(s, mod, scope, fn): s.mod, s.scope, s.fn = mod, dict(scope), fn
    def num(s, v, want):
        v = v.replace('_', '')
        m = re.match(r'^(.*?)(f64|u8|u128|i32|usize)$', v)
        suf = None
        if m: v, suf = m.group(1), m.group(2)
        if suf in ('u8', 'u128', 'usize', 'i32'): return v
        if suf == 'f64' or '.' in v or 'e' in v or 'E' in v:
            if v.endswith('.'): v += '0'
            if '.' not in v and 'e' not in v: v += '.0'
            return f'({v} : α)' if want else v
        return v
    def ty(s, e):
        k = e[0]
        if k == 'path' and len(e[1]) == 1 and e[1][0] in s.scope: return s.scope[e[1][0]]
        if k == 'paren': return s.ty(e[1])
        if k == 'field': 
            if e[2] == 'number_of_links': return 'Nat'
            return 'α'
        if k == 'as': return e[2]
        if k == 'neg': return s.ty(e[1])
        return 'α'
    # returns (string, precedence); 100 = atom, 90 = application
    def at(s, e):            # as an argument
        t, p = s.e(e)
        return t if p >= 100 else f'({t})'
    def e(s, e):
        k = e[0]
        if k == 'num': return s.num(e[1], False), 100
        if k == 'paren': return s.e(e[1])
        if k == 'neg':
            t, p = s.e(e[1])
            return f'(-{t if p >= 90 else "(" + t + ")"})', 100
        if k == 'bin':
            o = e[1]
            if o in ('+', '-', '*', '/'):
                lp = 65 if o in '+-' else 70
                a, pa = s.e(e[2]); b, pb = s.e(e[3])
                if pa < lp: a = f'({a})'
                if pb <= lp: b = f'({b})'
                return f'{a} {o} {b}', lp
            a, b = s.at(e[2]), s.at(e[3])
            if s.ty(e[2]) == 'Nat' and o == '==': return f'{a} == {b}', 50
            if o == '<': return f'Elem.lt {a} {b}', 90
            if o == '>': return f'Elem.lt {b} {a}', 90
            if o == '<=': return f'Elem.le {a} {b}', 90
            if o == '>=': return f'Elem.le {b} {a}', 90
            raise NotImplementedError(o)
        if k == 'as':
            t0 = s.ty(e[1]); x = s.at(e[1])
            if e[2] == 'α' and t0 == 'Nat': return f'({x} : α)', 100
            if e[2] == 'Int' and t0 == 'Nat': return f'({x} : Int)', 100
            raise NotImplementedError('cast')
        if k == 'path':
            p = e[1]
            if len(p) == 1 and p[0] in s.scope: return p[0], 100
            if p == ['PI']: return '(Elem.pi : α)', 100
            q = lookup(s.mod, p[-1]) if len(p) == 1 else None
            if q is None and len(p) > 1:
                m2, n2 = resolve_path(s.mod, p)
                q = ns(m2) + '.' + n2
            if q is None: raise NotImplementedError(f'name {p}')
            if p[-1].isupper():
                if p[-1] == 'POINTS': return q, 100
                return f'({q} : α)', 100
            return q, 100
        if k == 'call':
            if e[1][0] != 'path': raise NotImplementedError('call')
            p = e[1][1]
            if len(p) >= 2 and p[-1] == 'init':
                m2, n2 = resolve_path(s.mod, p[:-1])
                f = ns(m2) + '.' + n2 + '.init'
            elif len(p) == 1 and p[0] in s.scope and isinstance(s.scope[p[0]], tuple): f = p[0]
            else:
                f = lookup(s.mod, p[-1]) if len(p) == 1 else ns(resolve_path(s.mod, p)[0]) + '.' + p[-1]
            if f is None: raise NotImplementedError(f'function {p}')
            a = ' '.join(s.at(x) for x in e[2])
            return f'{f} {a}', 90
        if k == 'method':
            n = e[2]
            if n == 'contains' and e[1][0] == 'range' and e[1][3]:
                x = s.at(e[3][0])
                return f'(Elem.le {s.at(e[1][1])} {x} && Elem.le {x} {s.at(e[1][2])})', 100
            if n in ('collect', 'iter', 'try_into', 'unwrap'):
                if n == 'try_into': return f'({s.at(e[1])} : Int)', 100
                return s.e(e[1])
            if n == 'map':
                em = Emit(s.mod, s.scope, s.fn)
                (v, _t), = e[3][0][1]
                em.scope[v] = 'Nat'
                return f'List.map (fun ({v} : Nat) => {em.e(e[3][0][2])[0]}) {s.at(e[1])}', 90
            if n == 'sum': return f'Polymers.fsum {s.at(e[1])}', 90
            x = s.at(e[1])
            if n in UN and not e[3]: return f'Elem.{UN[n]} {x}', 90
            if n == 'powi': return f'Elem.powi {x} {s.at(e[3][0])}', 90
            if n == 'powf': return f'Elem.powf {x} {s.at(e[3][0])}', 90
            raise NotImplementedError(f'method {n}')
        if k == 'field':
            return f'{s.at(e[1])}.{e[2]}', 100
        if k == 'index':
            # out-of-bounds indexing panics
            if s.lty_of(e[1]) == 'list2': return f'(List.getD {s.at(e[1])} {s.at(e[2])} [])', 100
            return f'(List.getD {s.at(e[1])} {s.at(e[2])} Elem.panic)', 100
        if k == 'array':
            return '[' + ', '.join(s.e(x)[0] for x in e[1]) + ']', 100
        if k == 'range':
            assert not e[3]
            return f'List.range\' {e[1][1]} {int(e[2][1]) - int(e[1][1])}', 90
        if k == 'not':
            return f'!{s.at(e[1])}', 85
        if k == 'panic': return 'Elem.panic', 100
        if k == 'closure':
            em = Emit(s.mod, s.scope, s.fn)
            for n, t in e[1]: em.scope[n] = t or 'α'
            ps = ' '.join(f'({n} : {lty(t or "α", s.mod)})' for n, t in e[1])
            b, _ = em.e(e[2])
            return f'fun {ps} => {b}', 10
        if k == 'block':
            return '(' + s.block(e[1], '; ') + ')', 100
        if k == 'if':
            em1 = Emit(s.mod, s.scope, s.fn); em2 = Emit(s.mod, s.scope, s.fn)
            c, _ = s.e(e[1]); a, _ = em1.e(e[2]); b, _ = em2.e(e[3])
            return f'if {c} then {a} else {b}', 10
        if k == 'struct':
            fs = ', '.join(f'{n} := {s.e(x)[0]}' for n, x in e[2])
            return '{ ' + fs + ' }', 100
        raise NotImplementedError(k)
    def lty_of(s, e):
        if e[0] == 'path' and len(e[1]) == 1: return s.scope.get(e[1][0])
        return None
    def block(s, stmts, sep='\n  '):
        out = []
        for i, st in enumerate(stmts):
            if st[0] == 'let':
                _, n, ty, x = st
                t, _p = s.e(x)
                isfn = x[0] == 'closure' or (x[0] == 'paren' and x[1][0] == 'closure')
                lt = ty or (('fn', 1) if isfn else ('nat' if False else 'α'))
                if n == 'sums': lt = ('list', 'α')
                if x[0] == 'array': lt = 'list2' if x[1][0][0] == 'array' else ('list', 'α')
                ann = lty(lt, s.mod) if lt != 'list2' else 'List (List α)'
                out.append(f'let {n} : {ann} := {t}')
                s.scope[n] = lt
            elif st[0] == 'set' and st[1][0] == 'path' and st[1][1][0] in s.scope:
                out.append(f'let {st[1][1][0]} : α := {s.e(st[2])[0]}')
            elif st[0] == 'decl':
                s.scope[st[1]] = st[2]
            elif st[0] == 'stmt' and st[1][0] == 'if' and st[1][3] is None and st[1][2][1] == [('stmt', ('panic',))]:
                # `if c { panic!() } rest`
                rest = s.block(stmts[i + 1:], '; ')
                out.append(f'if {s.e(st[1][1])[0]} then Elem.panic else ({rest})')
                return sep.join(out)
            elif st[0] == 'stmt' and st[1][0] == 'if' and st[1][3] is not None:
                # `if c { d = ..; e = ..; } else { d = ..; e = ..; }`
                c, th, el = st[1][1], st[1][2][1], st[1][3][1]
                for x, y in zip(th, el):
                    assert x[0] == 'set' and y[0] == 'set' and x[1] == y[1]
                    out.append(f'let {x[1][1][0]} : α := if {s.e(c)[0]} then {s.e(x[2])[0]} else {s.e(y[2])[0]}')
            elif st[0] == 'stmt' and st[1][0] == 'if' and st[1][3] is None:
                # `if c { x = e; }`  -->  let x := if c then e else x
                c = st[1][1]; b = st[1][2][1]
                assert len(b) == 1 and b[0][0] == 'set', b
                v = b[0][1][1][0]
                out.append(f'let {v} : α := if {s.e(c)[0]} then {s.e(b[0][2])[0]} else {v}')
            elif st[0] == 'ret':
                out.append(s.e(st[1])[0])
            else:
                raise NotImplementedError(f'statement {st[0]}')
        if stmts[-1][0] != 'ret': raise NotImplementedError('no value')
        return sep.join(out)

def lty(t, mod):
    if isinstance(t, str): return t
    if t[0] == 'fn': return ' → '.join(['α'] * (t[1] + 1))
    if t[0] == 'list': return 'List ' + lty(t[1], mod)
    if t[0] == 'path':
        if t[1] == ['Self']: return 'Self'
        m2, n = resolve_path(mod, t[1])
        return f'{ns(m2)}.{n} α'
    raise NotImplementedError(f'type {t}')

VARS = 'variable {α : Type} [Add α] [Sub α] [Mul α] [Div α] [Neg α] [OfScientific α] [NatCast α] [Elem α]'

def emit_module(m, overrides, log):
    out = []
    n = ns(m.mod)
    rel = os.path.relpath(m.path, os.path.dirname(SRC))
    def cite(f): return f'`{rel}` lines {f["l0"]}-{f["l1"]}'
    body = []
    for c, ty, e, l in m.consts:
        if c == 'NUMGRID': continue
        em = Emit(m.mod, {}, None)
        if ty == 'Nat': body.append(f'/-- `{rel}` line {l}: `{c}`. -/\ndef {c} : Nat := {em.e(e)[0]}\n')
        else: body.append(f'/-- `{rel}` line {l}: `{c}`. -/\ndef {c} : α := {em.e(e)[0]}\n')
    for st in m.structs:
        fs = '\n'.join(f'  /-- field `{a}` -/\n  {a} : {lty(t, m.mod)}' for a, t in st['fields'])
        body.append(f'/-- {cite(st)}: struct `{st["name"]}`. -/\nstructure {st["name"]} (α : Type) where\n{fs}\n')
    for owner, f in [(None, f) for f in m.fns] + m.impls:
        key = ns(m.mod) + '.' + ((owner + '.') if owner else '') + f['name']
        if key in overrides:
            if overrides[key]:
                body += [x.strip() + '\n' for x in re.split(r'\n\n(?=/--)', overrides[key].replace('@CITE@', cite(f)))]
            log.append(('hand', key)); continue
        try:
            if isinstance(f['body'], tuple) and f['body'][0] == 'unsupported': raise NotImplementedError(f['body'][1])
            if f['generic']: raise NotImplementedError('generic')
            scope = {a: t for a, t in f['params']}
            if f['self']: scope['self'] = 'self'
            em = Emit(m.mod, scope, f)
            ps = ''.join(f' ({a} : {lty(t, m.mod)})' for a, t in f['params'])
            b = em.block(f['body'][1])
            if owner:
                nm = f'{owner}.{f["name"]}'
                if f['self']: ps = f' (self : {ns(m.mod)}.{owner} α)' + ps
                ret = f'{ns(m.mod)}.{owner} α' if lty(f['ret'], m.mod) == 'Self' else lty(f['ret'], m.mod)
            else:
                nm = f['name']; ret = lty(f['ret'], m.mod)
            body.append(f'/-- {cite(f)}. -/\ndef {nm}{ps} : {ret} :=\n  {b}\n')
            log.append(('auto', key))
        except NotImplementedError as ex:
            log.append(('FAIL', key, str(ex)))
    items = []
    for b in body:
        nm = re.search(r'^(?:noncomputable )?(?:def|structure) ([\w.]+)', b, re.M).group(1)
        items.append((n, n + '.' + nm, b))
    return items

def render(items):
    """stable topological sort of the definitions, grouped by namespace"""
    byname = {q: (n, q, b) for n, q, b in items}
    done, out = set(), []
    def visit(q):
        if q in done: return
        done.add(q)
        n, _, b = byname[q]
        for d in re.findall(r'Polymers\.[\w.]+', re.sub(r'/--.*?-/', '', b, flags=re.S)):
            d = d.rstrip('.')
            if d in byname and d != q: visit(d)
        out.append(byname[q])
    for n, q, b in items: visit(q)
    txt, cur = '', None
    for n, q, b in out:
        if n != cur:
            if cur: txt += f'end {cur}\n\n'
            txt += f'namespace {n}\n\n'; cur = n
        txt += b + '\n'
    return txt + f'end {cur}\n'

def order(mods):
    """children before parents, except that a parent's free functions used by children come first."""
    return sorted(mods, key=lambda m: (-len(m.mod), m.mod))

GROUPS = [
  ('Ideal', 'physics/single_chain/ideal', ['Verif.Model.Math']),
  ('Fjc', 'physics/single_chain/fjc', ['Verif.Model.Math']),
  ('Efjc', 'physics/single_chain/efjc', ['Verif.Model.Math']),
  ('Swfjc', 'physics/single_chain/swfjc', ['Verif.Model.Math']),
  ('LennardJones', 'physics/single_chain/ufjc/lennard_jones', ['Verif.Model.Math']),
  ('LogSquared', 'physics/single_chain/ufjc/log_squared', ['Verif.Model.Math']),
  ('Morse', 'physics/single_chain/ufjc/morse', ['Verif.Model.Math']),
  ('Wlc', 'physics/single_chain/wlc', ['Verif.Model.Math']),
]

def load_overrides():
    o = {}
    p = os.path.join(os.path.dirname(os.path.abspath(__file__)), 'overrides.txt')
    if not os.path.exists(p): return o
    key = None
    for line in open(p):
        if line.startswith('=== '):
            key = line[4:].strip(); o[key] = ''
        elif key is not None: o[key] += line
    return {k: v.strip() + '\n' if v.strip() else '' for k, v in o.items()}

def main():
    for d, _, fs in os.walk(SRC):
        if 'mod.rs' in fs:
            rel = os.path.relpath(d, SRC)
            if 'constitutive' in rel or 'monte_carlo' in rel or rel == 'math': 
                m = Module(); m.mod = rel.split('/'); m.uses = {}; m.consts = []; m.structs = []; m.impls = []
                m.path = os.path.join(d, 'mod.rs'); m.fns = [{'name': x} for x in re.findall(r'fn (\w+)', open(m.path).read())]
                MODS[rel] = m; continue
            m = parse_file(os.path.join(d, 'mod.rs'))
            MODS['/'.join(m.mod)] = m
    ov = load_overrides(); log = []
    os.makedirs(OUT, exist_ok=True)
    for name, prefix, imports in GROUPS:
        ms = [m for k, m in MODS.items() if (k == prefix or k.startswith(prefix + '/')) and 'monte_carlo' not in k]
        txt = '/- Generated by tools/rust2lean.py from /repo/src/' + prefix + ' ; do not edit by hand. -/\n'
        txt += ''.join(f'import {i}\n' for i in imports)
        txt += '\nset_option linter.unusedVariables false\n\nopen Polymers\n\n' + VARS + '\n\n'
        # dependency order between modules: free functions first (parents needed by children),
        # handled by hand-written imports; remaining order: deepest first, isometric before isotensional
        items = []
        for m in order(ms): items += emit_module(m, ov, log)
        txt += render(items)
        open(os.path.join(OUT, name + '.lean'), 'w').write(txt)
    auto = sum(1 for x in log if x[0] == 'auto'); hand = sum(1 for x in log if x[0] == 'hand')
    print(f'auto {auto} hand {hand}')
    for x in log:
        if x[0] == 'FAIL': print(*x)

if __name__ == "__main__": main()
