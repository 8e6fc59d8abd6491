#!/usr/bin/env python3
"""Translate the Julia package (mod.jl) of the single-chain models into Lean 4: lean/Verif/Model/Julia<Model>.lean.

Every Julia function becomes one definition in the namespace of its Julia module (`Polymers.Julia.Fjc.Thermodynamics...`,
without `Physics.SingleChain`).  A struct becomes a structure, its constructor function `NAME(...)` the definition
`NAME.new`; the positional arguments of the inner constructor are matched with the fields in order of declaration.
Arguments are numbers or arrays (`JArr`): `broadcast(f, x, y)` is `JArr.ap (JArr.map f x) y`.  `ccall` with a symbol is a call of the exported function of that
name (`Polymers.C`), with the argument types of the call.  Names are resolved through `using`/`import` as Julia does:
relative module paths are followed and an unresolved name is reported."""
import re, os, sys
sys.argv = sys.argv[:1]
import rust2lean as R
import ex2lean

SRC = '/repo/src'
OUT = '/verif/lean/Verif/Model'
TOK = re.compile(r'(?P<ws>\s+)|(?P<com>#[^\n]*)|(?P<num>0x[0-9a-fA-F]+|\d+(?:\.\d+)?(?:[eE][+-]?\d+)?)|(?P<sym>:(?=[a-z])\w+)'
                 r'|(?P<str>"[^"]*")|(?P<id>@?[A-Za-z_]\w*)|(?P<op>->|::|\.\+|[-+*/^=(){},.:;])')

class Mod:
    def __init__(s, path, parent):
        s.path, s.parent = path, parent          # path: list of Julia module names
        s.children, s.consts, s.funcs, s.structs, s.imports = {}, {}, [], {}, {}

class Parser:
    def __init__(s, file):
        s.file = file
        text = re.sub(r'""".*?"""', lambda m: '\n' * m.group(0).count('\n'), open(file).read(), flags=re.S)
        s.t, pos, line = [], 0, 1
        while pos < len(text):
            m = TOK.match(text, pos)
            if not m: raise SyntaxError(f'{file}:{line}: {text[pos:pos+30]!r}')
            if m.lastgroup not in ('ws', 'com'): s.t.append((m.lastgroup, m.group(), line))
            line += m.group().count('\n'); pos = m.end()
        s.t.append(('eof', '', line)); s.i = 0
    def pk(s, o=0): return s.t[min(s.i + o, len(s.t) - 1)]
    def at(s, v): return s.pk()[1] == v and s.pk()[0] != 'str'
    def nx(s):
        s.i += 1; return s.t[s.i - 1]
    def eat(s, v):
        t = s.nx()
        if t[1] != v: raise SyntaxError(f'{s.file}:{t[2]}: expected {v}, got {t}')
        return t
    def opt(s, v):
        if s.at(v): s.i += 1; return True
        return False
    def type(s):
        n = s.nx()[1]
        if n == 'Union':
            s.eat('{'); a = []
            while not s.at('}'): a.append(s.nx()[1]); s.opt(',')
            s.eat('}'); return 'B ' + a[0]
        return n
    # module body
    def body(s, mod, until):
        while not s.at(until) and s.pk()[0] != 'eof':
            k, v, l = s.nx()
            if v == 'module':
                n = s.nx()[1]
                m = Mod(mod.path + [n], mod); mod.children[n] = m; m.file = s.file
                s.body(m, 'end'); s.eat('end')
            elif v in ('using', 'import'):
                d = 0
                while s.opt('.'): d += 1
                names = [s.nx()[1]]
                if s.opt(':'):
                    items = [s.nx()[1]]
                    while s.opt(','): items.append(s.nx()[1])
                    for x in items: mod.imports[x] = (d, names[0], l)
                else: assert d == 0, (s.file, l)
            elif v == 'include':
                s.eat('('); f = s.nx()[1].strip('"'); s.eat(')')
                Parser(os.path.join(os.path.dirname(s.file), f)).body(mod, '')
            elif v == 'const':
                n = s.nx()[1]; s.eat('=')
                toks = [s.nx()]
                if toks[0][1] == 'string':
                    d = 0
                    while True:
                        t = s.nx(); d += (t[1] == '(') - (t[1] == ')')
                        if d == 0: break
                mod.consts[n] = (toks[0][1], l, s.file)
            elif v == 'struct':
                n = s.nx()[1]; fs = []
                while not s.at('end'):
                    f = s.nx()[1]; s.eat('::'); fs.append((f, s.type()))
                l1 = s.eat('end')[2]
                assert n not in mod.structs
                mod.structs[n] = (fs, l, l1, s.file)
            elif v == 'function':
                n = s.nx()[1]; s.eat('('); ps = []
                while not s.at(')'):
                    p = s.nx()[1]; s.eat('::'); ps.append((p, s.type())); s.opt(',')
                s.eat(')')
                if s.opt('::'): s.type()
                if n == 'integrate':            # modelled by hand
                    while not s.at('end'): s.nx()
                    l1 = s.eat('end')[2]; mod.funcs.append((n, ps, None, None, l, l1, s.file)); continue
                lets = []
                while not s.at('return'):
                    x = s.nx()[1]
                    if s.opt('::'): s.type()
                    s.eat('='); lets.append((x, s.expr()))
                s.eat('return'); e = s.expr(); l1 = s.eat('end')[2]
                mod.funcs.append((n, ps, lets, e, l, l1, s.file))
            elif n_skip(v, s): pass
            else: raise SyntaxError(f'{s.file}:{l}: {v}')
    def expr(s):
        # lambda?
        if s.pk()[0] == 'id' and s.pk(1)[1] == '->':
            v = s.nx()[1]; s.nx(); return ('lam', [v], s.expr())
        if s.at('('):
            j = s.i + 1; vs = []
            while s.t[j][0] == 'id' and s.t[j + 1][1] in (',', ')'):
                vs.append(s.t[j][1]); j += 1
                if s.t[j][1] == ',': j += 1
            if s.t[j][1] == ')' and s.t[j + 1][1] == '->':
                s.i = j + 2; return ('lam', vs, s.expr())
        e = s.mul()
        while s.pk()[1] in ('+', '-'):
            o = s.nx()[1]; e = ('bin', o, e, s.mul())
        return e
    def mul(s):
        e = s.pow()
        while s.pk()[1] in ('*', '/'):
            o = s.nx()[1]; e = ('bin', o, e, s.pow())
        return e
    def pow(s):
        e = s.post()
        if s.opt('^'): e = ('pow', e, s.post())
        return e
    def post(s):
        e = s.prim()
        while True:
            if s.opt('.'): e = ('dot', e, s.nx()[1])
            elif s.at('('):
                s.eat('('); a = []
                while not s.at(')'): a.append(s.expr()); s.opt(',')
                s.eat(')'); e = ('call', e, a)
            else: return e
    def prim(s):
        k, v, l = s.nx()
        if k in ('num', 'id', 'sym'): return (k, v)
        if v == '(':
            a = []
            while not s.at(')'):
                a.append(s.expr()); c = s.opt(',')
            s.eat(')')
            return a[0] if len(a) == 1 and not c else ('tup', a)
        raise SyntaxError(f'{s.file}:{l}: {v}')

def n_skip(v, s):
    """the test parameters of physics/single_chain/mod.jl"""
    if v == 'parameters':
        s.eat('='); s.expr(); return True
    return False

PROBLEMS = []
LEAN_T = {'UInt8': 'Nat', 'Float64': 'α', 'B UInt8': 'JArr Nat', 'B Float64': 'JArr α'}

def lean_ns(path): return '.'.join(['Polymers', 'Julia'] + [x for x in path if x not in ('Polymers', 'Physics', 'SingleChain')])

def find(mod, name):
    """module in which `name` (const or function) used inside `mod` is defined"""
    if name in mod.consts or any(f[0] == name for f in mod.funcs): return mod
    if name in mod.imports:
        d, target, l = mod.imports[name]
        m = mod
        for _ in range(d - 1):
            m = m.parent
            if m is None: PROBLEMS.append(f'{mod.file}:{l}: {name}: too many dots'); return None
        # the name after the dots is a submodule of m, or m itself by its own name
        t = m.children.get(target) or (m if m.path[-1] == target else None)
        if t is None: PROBLEMS.append(f'{mod.file}:{l}: {target} not found from {m.path}'); return None
        if name in t.consts or any(f[0] == name for f in t.funcs): return t
        PROBLEMS.append(f'{mod.file}:{l}: {name} not in {t.path}'); return None
    return None

CSIG = {}
_W = ('Polymers', 'Physics', 'SingleChain', 'Wlc')
# functions with a call whose argument types are not those of the exported function, and their users
ABI = {(_W + ('Thermodynamics', 'Isometric'), 'nondimensional_equilibrium_distribution'),
       (_W + ('Thermodynamics', 'Isometric'), 'nondimensional_equilibrium_radial_distribution'),
       (_W + ('Thermodynamics', 'Isometric'), 'WLC'), (_W + ('Thermodynamics',), 'WLC'), (_W, 'WLC')}
PASS = ' (pass : List (CArg α) → Registers α)'

OTHER = ' (other : α → JArr α → Option (JArr α))'

def divides(e):
    """a division by the argument of a closure"""
    return e[0] == 'lam' and any(divided(e[2], v) for v in e[1])

def divided(e, v):
    if e[0] == 'bin' and e[1] == '/' and e[3] == ('id', v): return True
    return any(divided(x, v) for x in e if isinstance(x, tuple)) or any(divided(y, v) for x in e if isinstance(x, list) for y in x if isinstance(y, tuple))

def needs_other(m, name):
    g = [x for x in m.funcs if x[0] == name][0]
    if name not in m.structs: return False
    return any(divides(x) or (x[0] == 'call' and x[1][0] == 'dot' and needs_other(m.children[x[1][1][1]], x[1][2])) for x in g[3][2])

def taint(m, f): return ('other ' if needs_other(m, f) else '') + ('pass ' if (tuple(m.path), f) in ABI else '')

def params(m, f): return (OTHER if needs_other(m, f) else '') + (PASS if (tuple(m.path), f) in ABI else '')

class Emit:
    def __init__(s, mod, scope, where, fn=None): s.mod, s.scope, s.where, s.fn = mod, dict(scope), where, fn
    def bad(s, msg): PROBLEMS.append(f'{s.where}: {msg}'); return 'Elem.panic'
    def ty(s, e):
        if e[0] == 'id': return s.scope.get(e[1], 'α')
        if e[0] == 'bin' and 'JArr α' in (s.ty(e[2]), s.ty(e[3])): return 'JArr α'
        return 'α'
    def at(s, e, want=None):
        t, p = s.e(e)
        if want == 'α' and s.ty(e) == 'Nat': return f'({t} : α)'
        return t if p >= 100 else f'({t})'
    def e(s, e):
        k = e[0]
        if k == 'num': return (e[1] if re.search(r'[.e]', e[1]) else e[1] + '.0'), 100
        if k == 'id':
            if e[1] in s.scope: return e[1], 100
            m = find(s.mod, e[1])
            if m is None: return s.bad(f'unresolved name {e[1]}'), 100
            q = lean_ns(m.path) + '.' + e[1]
            return (q if e[1] in ('POINTS', 'integrate') or e[1].islower() else f'({q} : α)'), 100
        if k == 'bin':
            p = 65 if e[1] in '+-' else 70
            a, pa = s.e(e[2]); b, pb = s.e(e[3])
            if s.ty(e[2]) == 'Nat': a, pa = f'({a} : α)', 100
            if s.ty(e[3]) == 'Nat': b, pb = f'({b} : α)', 100
            if pa < p: a = f'({a})'
            if pb <= p: b = f'({b})'
            return f'{a} {e[1]} {b}', p
        if k == 'pow':
            assert e[2][0] == 'num' and e[2][1].isdigit()
            return f'Elem.powi {s.at(e[1])} {e[2][1]}', 90
        if k == 'lam':
            em = Emit(s.mod, s.scope, s.where, s.fn)
            for v in e[1]: em.scope[v] = 'α'
            return f'fun {" ".join(f"({v} : α)" for v in e[1])} => JArr.value ({em.e(e[2])[0]})', 10
        if k == 'call':
            f, a = e[1], e[2]
            if f == ('id', 'broadcast'):
                lam, args = a[0], a[1:]
                assert lam[0] == 'lam'
                if len(lam[1]) != len(args): return s.bad('broadcast arity'), 100
                em = Emit(s.mod, s.scope, s.where, s.fn)
                ts = [s.ty(x) for x in args]
                assert all(t.startswith('JArr ') for t in ts)
                ts = [t[5:] for t in ts]
                for v, t in zip(lam[1], ts): em.scope[v] = t
                ps = ' '.join(f'({v} : {t})' for v, t in zip(lam[1], ts))
                r = f'JArr.map (fun {ps} => {em.e(lam[2])[0]}) {s.at(args[0])}'
                for x in args[1:]: r = f'JArr.ap ({r}) {s.at(x)}'
                return r, 90
            if f == ('id', 'ccall'):
                (tk, (sym, lib)), ret, tys, args = a[0], a[1], a[2], a[3:]
                assert lib == ('dot', ('id', 'Polymers_jll'), 'libpolymers') and ret == ('id', 'Float64')
                tys = [x[1] for x in tys[1]]
                name = sym[1][1:]
                if name not in CSIG: return s.bad(f'no exported symbol {name}'), 100
                if len(tys) != len(args): return s.bad(f'argument count of {name}'), 100
                for x, t in zip(args, tys):
                    if s.ty(x) != LEAN_T[t]: s.bad(f'type of argument {x} of {name}')
                if [LEAN_T[t] for t in tys] != [t for _, t in CSIG[name]]:
                    # the call does not have the type of the function: what the function receives depends on the
                    # calling convention
                    assert all(t == 'α' for _, t in CSIG[name]) and len(tys) <= 4
                    if (tuple(s.mod.path), s.fn) not in ABI: s.bad(f'argument types of {name}: {tys}')
                    l = ', '.join(('CArg.int ' if t == 'UInt8' else 'CArg.float ') + s.at(x) for x, t in zip(args, tys))
                    return f'Polymers.C.{name} ' + ' '.join(f'((pass [{l}]).float {i})' for i in range(len(CSIG[name]))), 90
                return f'Polymers.C.{name} ' + ' '.join(s.at(x) for x in args), 90
            if f[0] == 'dot':                     # constructor of a submodule
                assert f[1][0] == 'id'
                c = s.mod.children.get(f[1][1])
                if c is None or f[2] not in c.structs: return s.bad(f'no constructor {f[1][1]}.{f[2]}'), 100
                g = [x for x in c.funcs if x[0] == f[2]][0]
                return f'{lean_ns(c.path)}.{f[2]}.new ' + taint(c, f[2]) + s.args(g, a), 90
            if f[0] == 'id':
                if f[1] in s.scope: return s.bad(f'{f[1]} is a variable here'), 100
                m = find(s.mod, f[1])
                if m is None: return s.bad(f'unresolved function {f[1]}'), 100
                g = [x for x in m.funcs if x[0] == f[1]][0]
                if f[1] == 'integrate': return f'{lean_ns(m.path)}.integrate ' + ' '.join(s.at(x) for x in a), 90
                binds, args = s.jargs(g, a)
                return binds + f'{lean_ns(m.path)}.{f[1]} ' + taint(m, f[1]) + args, 10 if binds else 90
        raise NotImplementedError(e)
    def jargs(s, g, a):
        """arguments of a function on arrays: numbers become arrays without dimensions, and quotients are computed before"""
        if len(g[1]) != len(a): s.bad(f'{g[0]}: {len(a)} arguments for {len(g[1])} parameters'); return '', ''
        binds, out = '', []
        for (p, t), x in zip(g[1], a):
            want, have = LEAN_T[t], s.ty(x)
            if have == want:
                if x[0] == 'id' or not want.startswith('JArr'): out.append(s.at(x)); continue
                if not (x[0] == 'bin' and x[1] == '/' and s.ty(x[2]) == 'α' and x[3][0] == 'id'): s.bad(f'{g[0]}: argument {p}')
                v = f'q{len(out)}'
                binds += f'(JArr.quotient other {s.at(x[2])} {x[3][1]}).bind fun {v} => '
                out.append(v)
            elif want == 'JArr ' + have: out.append(f'(JArr.scalar {s.at(x)})')
            else: s.bad(f'{g[0]}: argument type of {p}')
        return binds, ' '.join(out)
    def field(s, e):
        """the value of a field"""
        if e[0] != 'lam': return s.at(e)
        em = Emit(s.mod, s.scope, s.where, s.fn)
        for v in e[1]: em.scope[v] = 'JArr α'
        return f'(fun {" ".join(f"({v} : JArr α)" for v in e[1])} => {em.e(e[2])[0]})'
    def args(s, g, a):
        if len(g[1]) != len(a): s.bad(f'{g[0]}: {len(a)} arguments for {len(g[1])} parameters'); return ''
        for (p, t), x in zip(g[1], a):
            if s.ty(x) != LEAN_T[t]: s.bad(f'{g[0]}: argument type of {p}')
        return ' '.join(s.at(x) for x in a)

def field_type(em, e):
    if e[0] == 'id': return em.scope[e[1]]
    if e[0] == 'lam': return ' → '.join(['JArr α'] * len(e[1]) + ['Option (JArr α)'])
    if e[0] == 'call' and e[1][0] == 'dot':
        c = em.mod.children[e[1][1][1]]
        return f'{lean_ns(c.path)}.{e[1][2]} α'
    raise NotImplementedError(e)

def emit(mod, items):
    n = lean_ns(mod.path)
    for name, (fs, l0, l1, file) in mod.structs.items():
        rel = os.path.relpath(file, '/repo')
        cons = [f for f in mod.funcs if f[0] == name]
        assert len(cons) == 1
        _, ps, lets, e, c0, c1, cfile = cons[0]
        em = Emit(mod, {p: LEAN_T[t] for p, t in ps}, f'{rel}:{c0}')
        for x, _ in lets: em.scope[x] = 'α'
        assert e[0] == 'call' and e[1] == ('id', name)
        if len(e[2]) != len(fs):
            PROBLEMS.append(f'{rel}:{c0}: {len(e[2])} values for {len(fs)} fields'); continue
        ts = []
        for (f, t), x in zip(fs, e[2]):
            ft = field_type(em, x)
            want = {'UInt8': ft == 'Nat', 'Float64': ft == 'α', 'Function': x[0] == 'lam', 'Any': x[0] == 'call'}[t]
            if not want: PROBLEMS.append(f'{rel}:{c0}: field {f}::{t} gets {x[0]}')
            ts.append(ft)
        fl = '\n'.join(f'  /-- field `{f}::{t}` -/\n  {f} : {ft}' for (f, t), ft in zip(fs, ts))
        items.append((n, f'{n}.{name}', f'/-- `{rel}` lines {l0}-{l1}: struct `{name}`. -/\nstructure {name} (α : Type) where\n{fl}\n'))
        em2 = Emit(mod, {p: LEAN_T[t] for p, t in ps}, f'{rel}:{c0}')
        b = ''
        for x, v in lets:
            b += f'let {x} : α := {em2.e(v)[0]}\n  '; em2.scope[x] = 'α'
        vals = '\n    '.join(em2.field(x) for x in e[2])
        pl = params(mod, name) + ''.join(f' ({p} : {LEAN_T[t]})' for p, t in ps)
        items.append((n, f'{n}.{name}.new', f'/-- `{rel}` lines {c0}-{c1}. -/\ndef {name}.new{pl} : {n}.{name} α :=\n  {b}{n}.{name}.mk\n    {vals}\n'))
    for name, ps, lets, e, l0, l1, file in mod.funcs:
        if name in mod.structs or e is None: continue
        rel = os.path.relpath(file, '/repo')
        em = Emit(mod, {p: LEAN_T[t] for p, t in ps}, f'{rel}:{l0}', name)
        assert not lets
        pl = params(mod, name) + ''.join(f' ({p} : {LEAN_T[t]})' for p, t in ps)
        items.append((n, f'{n}.{name}', f'/-- `{rel}` lines {l0}-{l1}. -/\ndef {name}{pl} : Option (JArr α) :=\n  {em.e(e)[0]}\n'))
    for c in mod.children.values(): emit(c, items)

def load():
    ex2lean.load()
    for _, prefix, _ in R.GROUPS:
        for m in ex2lean.modules(prefix):
            for f in m.fns:
                if f['name'] in CSIG: PROBLEMS.append(f'{m.path}: symbol {f["name"]} exported twice')
                CSIG[f['name']] = f['params']
    root = Mod([], None)
    Parser(os.path.join(SRC, 'Polymers.jl')).body(root, '')
    return root.children['Polymers']

JL = {'Ideal': ['Ideal'], 'Fjc': ['Fjc'], 'Efjc': ['Efjc'], 'Swfjc': ['Swfjc'], 'LennardJones': ['Ufjc', 'LennardJones'],
      'LogSquared': ['Ufjc', 'LogSquared'], 'Morse': ['Ufjc', 'Morse'], 'Wlc': ['Wlc']}

def main():
    top = load()
    phys = top.children['Physics']; sc = phys.children['SingleChain']
    txt = '''/- Generated by tools/jl2lean.py ; do not edit by hand. -/
import Verif.Model.Base

open Polymers

''' + R.VARS + '\n\nnamespace Polymers.Julia\n\n'
    for m in (phys, sc):
        for c, (v, l, f) in m.consts.items():
            rel = os.path.relpath(f, '/repo')
            if c == 'POINTS': txt += f'/-- `{rel}` line {l}. -/\ndef POINTS : Nat := {v}\n\n'
            else: txt += f'/-- `{rel}` line {l}. -/\ndef {c} : α := {v}\n\n'
    (i,) = [f for f in sc.funcs if f[0] == 'integrate']
    txt += f'''/-- `src/physics/single_chain/mod.jl` lines {i[4]}-{i[5]}, with a count that is not zero: the points are
`lower_lim + (0.5 + i) * dx` for `i` in `range(0, num_points - 1)`; the order in which `sum` adds them is not modelled (they are
added from the left). -/
def integrate (fn : α → α) (lower_lim upper_lim : α) (num_points : Nat) : α :=
  let dx : α := (upper_lim - lower_lim) / (num_points : α)
  Polymers.fsum (List.map fn (List.map (fun (i : Nat) => lower_lim + (0.5 + (i : α)) * dx) (List.range num_points))) * dx

/-- A number or an array of Julia: its size in each dimension, and the entry at given indices.  A number has no dimensions.
Indices start at zero. -/
structure JArr (β : Type) where
  /-- `size` -/
  dims : List Nat
  /-- `getindex` -/
  get : List Nat → β

/-- A number. -/
def JArr.scalar {{β : Type}} (x : β) : JArr β := ⟨[], fun _ => x⟩

/-- `Base.Broadcast.broadcast_shape`: the size of the result; a missing dimension has size one, and dimensions of size one are
extended.  `none` is `DimensionMismatch`. -/
def JArr.shape : List Nat → List Nat → Option (List Nat)
  | [], e => some e
  | a :: d, [] => some (a :: d)
  | a :: d, b :: e =>
    (if a = b then some a else if a = 1 then some b else if b = 1 then some a else none).bind fun c =>
      (JArr.shape d e).map fun r => c :: r

/-- `Base.Broadcast.newindex`: the indices of the entry which is used; dimensions of size one are not indexed. -/
def JArr.clip : List Nat → List Nat → List Nat
  | [], _ => []
  | _ :: d, [] => 0 :: JArr.clip d []
  | a :: d, i :: r => (if a = 1 then 0 else i) :: JArr.clip d r

/-- `broadcast(f, x)`. -/
def JArr.map {{β γ : Type}} (f : β → γ) (x : JArr β) : Option (JArr γ) := some ⟨x.dims, fun i => f (x.get (JArr.clip x.dims i))⟩

/-- One more argument: `broadcast(f, x, y, z)` is `ap (ap (map f x) y) z`. -/
def JArr.ap {{β γ : Type}} (f : Option (JArr (β → γ))) (x : JArr β) : Option (JArr γ) :=
  f.bind fun g => (JArr.shape g.dims x.dims).map fun d => ⟨d, fun i => g.get (JArr.clip g.dims i) (x.get (JArr.clip x.dims i))⟩

/-- What a function on arrays returns for numbers. -/
def JArr.value (r : Option (JArr α)) : α :=
  match r with
  | some a => a.get []
  | none => Elem.panic

/-- `x / y` for a number `x`.  If `y` is not a number, this is a method of `LinearAlgebra`, not of the package: `other`. -/
def JArr.quotient (other : α → JArr α → Option (JArr α)) (x : α) (y : JArr α) : Option (JArr α) :=
  match y.dims with
  | [] => some (JArr.scalar (x / y.get []))
  | _ :: _ => other x y

/-- An argument of a foreign call. -/
inductive CArg (α : Type) where
  /-- `UInt8` -/
  | int (n : Nat)
  /-- `Float64` -/
  | float (x : α)

/-- The argument registers when a foreign function starts. -/
structure Registers (α : Type) where
  /-- integer registers -/
  int : Nat → Nat
  /-- floating-point registers -/
  float : Nat → α

/-- Passing at most four arguments under the System V AMD64 and the AAPCS64 convention: integers and floating-point numbers are
numbered separately, each in its own registers; registers without an argument keep their `old` contents. Not code of the
repository; used only for the two calls of `src/physics/single_chain/wlc/thermodynamics/isometric/mod.jl` whose argument types
differ from the exported function. -/
def separate (old : Registers α) (args : List (CArg α)) : Registers α where
  int i := ((args.filterMap fun | CArg.int n => some n | CArg.float _ => none)[i]?).getD (old.int i)
  float i := ((args.filterMap fun | CArg.int _ => none | CArg.float x => some x)[i]?).getD (old.float i)

/-- Passing at most four arguments under the Microsoft x64 convention: the position in the list of all arguments selects the
register, the type selects the register file. See `separate`. -/
def positional (old : Registers α) (args : List (CArg α)) : Registers α where
  int i := match args[i]? with | some (CArg.int n) => n | _ => old.int i
  float i := match args[i]? with | some (CArg.float x) => x | _ => old.float i

end Polymers.Julia
'''
    open(f'{OUT}/JuliaBase.lean', 'w').write(txt)
    cnt = 0
    for name, prefix, _ in R.GROUPS:
        m = sc
        for x in JL[name]: m = m.children[x]
        items = []; emit(m, items); cnt += len(items)
        txt = f'/- Generated by tools/jl2lean.py from the mod.jl files of /repo/src/{prefix} ; do not edit by hand. -/\n'
        txt += f'import Verif.Model.C{name}\nimport Verif.Model.JuliaBase\n\nset_option linter.unusedVariables false\n\nopen Polymers Polymers.Julia\n\n' + R.VARS + '\n\n'
        open(f'{OUT}/Julia{name}.lean', 'w').write(txt + R.render(items))
    print('definitions', cnt)
    for p in PROBLEMS: print('PROBLEM', p)

if __name__ == '__main__': main()
