#!/usr/bin/env python3
"""Write lean/Verif/Props/{C,Python,Julia}<Model>.lean: the bindings compute what the Rust methods compute (C58, C59, C60).
The methods are paired by name and the arguments of the C functions are chosen by parameter name; the bodies of the
bindings are not looked at."""
import re, sys
import gen_api as G
import gen_methods as M
import jl2lean as J
import rust2lean as R

VARS = ['set_option linter.unusedSectionVars false', '', R.VARS, '']
JNAME = {'Ideal': 'IDEAL'}

def camel(x): return ''.join(p.capitalize() for p in x.split('_'))

def parse_py(f):
    ns, out = None, {}
    for line in open(f'{G.ROOT}/Model/Python{f}.lean'):
        m = re.match(r'namespace Polymers.Python.(\S+)', line)
        if m: ns = m.group(1)
        m = re.match(r'def ([A-Za-z]+)\.(\w+) (.*?) : (\S+( α)?|NdArray α) :=', line)
        if m: out.setdefault((ns, m.group(1)), {})[m.group(2)] = [x for x in re.findall(r'\((\w+) : ([^)]*)\)', m.group(3)) if x[0] != 'self']
    return out

def julia_structs(f):
    """(module path, struct) -> field types of the Julia model, and the fields which divide by their last argument"""
    ns, out, div = None, {}, set()
    lines = open(f'{G.ROOT}/Model/Julia{f}.lean').read().split('\n')
    for i, line in enumerate(lines):
        m = re.match(r'namespace Polymers.Julia.(\S+)', line)
        if m: ns = m.group(1)
        m = re.match(r'structure (\w+) ', line)
        if m:
            cur = out.setdefault((ns, m.group(1)), {})
            for l in lines[i + 1:]:
                if l.strip() == '': break
                k = re.match(r'  (\w+) : (.*)', l)
                if k: cur[k.group(1)] = k.group(2)
        m = re.match(r'def (\w+)\.new ', line)
        if m:
            j = next(j for j in range(i, len(lines)) if lines[j].endswith('.mk'))
            for k, l in zip(out[(ns, m.group(1))], lines[j + 1:]):
                if 'JArr.quotient' in l: div.add((ns, m.group(1), k))
    return out, div

def c_params(f):
    out = {}
    for line in open(f'{G.ROOT}/Model/C{f}.lean'):
        m = re.match(r'def (\w+) (.*?) : α :=', line)
        if m: out[m.group(1)] = re.findall(r'\((\w+) : ([^)]*)\)', m.group(2))
    return out

NL = ' ∧\n      '
# Rust methods whose body is not a call of the free function; over the reals, by hand, in Props/Bindings.lean
BY_HAND = M.BY_HAND

def conj(eqs, proofs):
    return NL.join(eqs) + ' := by\n  exact ' + ('⟨' + ', '.join(proofs) + '⟩' if len(eqs) > 1 else proofs[0]) + '\n'

def main():
    for f in G.FILES:
        top, tname = G.TOP[f]
        free, meth, fields = M.parse(f)
        py, cp, (jl, div) = parse_py(f), c_params(f), julia_structs(f)
        head = lambda k, imp, p: ['/- Generated by tools/gen_bindings.py ; do not edit by hand. -/'] + [f'import {i}' for i in imp] + \
            ['', f'/-! Property {p}.  Over any number type, so in particular over floating-point numbers. -/', '', 'namespace Polymers.Props', ''] + VARS
        oc = head('C', [f'Verif.Model.C{f}'], 'C58')
        op = head('Python', [f'Verif.Model.Python{f}'], 'C59')
        oj = head('Julia', [f'Verif.Model.Julia{f}', 'Verif.Lemmas.Julia'], 'C60')
        oj.insert(oj.index('namespace Polymers.Props') + 1, '\nopen Polymers.Julia Polymers.Spec')
        ob = ['/-! ### Property C91 -/\n']
        usedc, usedpy, usedjl = set(), set(), set()
        for (ns, st), ms in meth.items():
            init = [x for x, _ in ms['init']]
            b = ' '.join(f'({G.BINDERS[x][0]} : {G.BINDERS[x][1].replace("ℝ", "α").replace("ℕ", "Nat")})' for x in init)
            a = ' '.join(G.BINDERS[x][0] for x in init)
            path = ns[len(top):]
            ident = ns.replace('ufjc.', '').replace('.thermodynamics', '_thermodynamics' if ns.endswith('thermodynamics') else '').replace('.', '_')
            rust = f'(Polymers.{top}.{tname}.init {a}){path}'
            src = 'src/physics/single_chain/' + ns.replace('.', '/')
            stored = [x for x, _ in fields[(ns, st)] if x in G.BINDERS]
            methods = {k: v for k, v in ms.items() if k != 'init'}
            # ---- C
            eqs, pf = [], []
            for mn, ma in methods.items():
                sym = 'physics_single_chain_' + ns.replace('.', '_') + '_' + mn
                if sym not in cp: print('no C symbol', sym); continue
                usedc.add(sym)
                if (ns, mn) in BY_HAND: continue
                names = [x for x, _ in ma]
                args = ' '.join(M.value(x, names, 's') for x, _ in cp[sym])
                eqs.append(f'(∀ {" ".join(names)} : α, Polymers.C.{sym}\n          {args} =\n        s.{mn} {" ".join(names)})')
                pf.append('fun ' + '_ ' * len(names) + '=> rfl')
            if eqs:
                oc.append(f'/-- C58: the functions exported by `{src}/ex.rs` against the methods of `{tname}::init({", ".join(init)}){path}`. -/\n'
                          f'theorem C58_c_{ident} {b} :\n    let s := {rust}\n    ' + conj(eqs, pf))
            # ---- Python
            if (ns, st) not in py: print('no Python class', ns, st)
            else:
                usedpy.add((ns, st))
                eqs = [f'py.{x} = {G.BINDERS[x][0]}' for x in stored]; pf = ['rfl'] * len(stored)
                for mn, ma in methods.items():
                    if mn not in py[(ns, st)]: print('no Python method', ns, mn); continue
                    names = [x for x, _ in ma]
                    pa = py[(ns, st)][mn]
                    if [x for x, _ in pa] != names: print('Python arguments', ns, mn, pa, names)
                    assert [t for _, t in pa] == ['NdArray α'] + ['α'] * (len(pa) - 1), (ns, mn, pa)
                    if (ns, mn) in BY_HAND: continue
                    rest = names[1:]
                    eqs.append(f'(∀ (xs : NdArray α)' + (f' ({" ".join(rest)} : α)' if rest else '') + f', py.{mn} xs {" ".join(rest)}'.rstrip() +
                               f' =\n        ⟨xs.shape, xs.data.map fun {names[0]} => s.{mn} {" ".join(names)}⟩)')
                    pf.append('fun ' + '_ ' * len(names) + '=> rfl')
                for mn in py[(ns, st)]:
                    if mn != 'init' and mn not in methods: print('extra Python method', ns, mn)
                if [x for x, _ in py[(ns, st)]['init']] != init: print('Python init', ns, py[(ns, st)]['init'])
                op.append(f'/-- C59: the Python class of `{src}/py.rs`, as reached from `{tname}({", ".join(init)})`. -/\n'
                          f'theorem C59_python_{ident} {b} :\n    let py := (Polymers.Python.{top}.{tname}.init {a}){path}\n    ' + (f'let s := {rust}\n    ' if methods else '') + conj(eqs, pf))
            # ---- Julia
            jns = '.'.join(camel(x) for x in ns.split('.')); jst = JNAME.get(st, st)
            jtop = '.'.join(camel(x) for x in top.split('.')); jt = JNAME.get(tname, tname)
            if (jns, jst) not in jl: print('no Julia struct', jns, jst)
            else:
                usedjl.add((jns, jst))
                fl = jl[(jns, jst)]
                tt = f in ('Wlc',)
                eqs = []; pf = []
                for x in stored:
                    eqs.append(f'jl.{x} = {G.BINDERS[x][0]}'); pf.append('rfl')
                for mn, ma in methods.items():
                    if mn not in fl: print('no Julia method', ns, mn); continue
                    names = [x for x, _ in ma]
                    if fl[mn] != ' → '.join(['JArr α'] * len(names) + ['Option (JArr α)']): print('Julia arity', ns, mn, fl[mn]); continue
                    if (ns, mn) in BY_HAND or (ns == 'wlc.thermodynamics.isometric' and 'distribution' in mn): continue
                    n = len(names)
                    if (jns, jst, mn) in div:
                        assert n == 2 and names[1] == 'temperature', (ns, mn)
                        eqs.append(f'(∀ temperature : α, Elementwise₁ (fun x => s.{mn} x temperature) fun x => jl.{mn} x (JArr.scalar temperature))')
                        pf.append('fun t => ' + ('JArr.elementwise₁_scalar t fun _ => rfl' if 'free_energy' in mn and 'relative' not in mn else 'JArr.elementwise₁ fun _ => rfl'))
                    else:
                        eqs.append(f'Elementwise{"₁₂₃"[n - 1]} s.{mn} jl.{mn}')
                        pf.append(f'JArr.elementwise{"₁₂₃"[n - 1]} fun ' + '_ ' * n + '=> rfl')
                for mn, t in fl.items():
                    if '→' in t and mn not in methods: print('extra Julia method', ns, mn)
                extra = '(pass : List (CArg α) → Registers α) ' if tt else ''
                other = any((x, y) == (jns, jst) or x.startswith(jtop) for x, y, _ in div)
                if other: extra = '(other : α → JArr α → Option (JArr α)) ' + extra
                proof = conj(eqs, pf)
                eqs2, pf2 = [], []
                for mn, ma in methods.items():
                    if (jns, jst, mn) not in div: continue
                    cps = [x for x, _ in cp['physics_single_chain_' + ns.replace('.', '_') + '_' + mn]]
                    qs = [x for x in cps if x.startswith('nondimensional_link_')]
                    names = {ma[0][0]: 'x', 'temperature': 't', **dict(zip(qs, ('q', 'r')))}
                    xs = ' '.join('(' + M.value(x, [], 's')[1:-len(' / temperature)')] + ')' for x in qs)
                    fn = 'fun ' + ' '.join(['q', 'r'][:len(qs)] + ['x'] + ['t'] * ('temperature' in cps)) + \
                        ' => Polymers.C.physics_single_chain_' + ns.replace('.', '_') + '_' + mn + ' ' + ' '.join(names.get(x) or M.value(x, [], 's') for x in cps)
                    eqs2.append(f'Squares jl.{mn}')
                    pf2.append(f'JArr.squares{"₁₂"[len(qs) - 1]}{"_scalar" if "temperature" in cps else ""} hother {xs} ({fn}) fun _ _ => rfl')
                if eqs2:
                    ob.append(f'/-- C91: the Julia struct of `{src}/mod.jl`, as reached from `{jt}({", ".join(init)})`. -/\n'
                          f'theorem C91_julia_{ident} {extra}(hother : QuotientIsRow other) {b} :\n    let jl := (Polymers.Julia.{jtop}.{jt}.new other {a}){path}\n    ' + conj(eqs2, pf2))
                oj.append(f'/-- C60: the Julia struct of `{src}/mod.jl`, as reached from `{jt}({", ".join(init)})`. -/\n'
                          f'theorem C60_julia_{ident} {extra}{b} :\n    let jl := (Polymers.Julia.{jtop}.{jt}.new {"other " if other else ""}{"pass " if tt else ""}{a}){path}\n    ' + (f'let s := {rust}\n    ' if methods else '') + proof)
        for s in set(cp) - usedc: print('extra C symbol', s)
        for s in set(py) - usedpy: print('extra Python class', s)
        for s in set(jl) - usedjl: print('extra Julia struct', s)
        if len(ob) > 1: oj += ob
        for k, o in (('C', oc), ('Python', op), ('Julia', oj)):
            open(f'{G.ROOT}/Props/{k}{f}.lean', 'w').write('\n'.join(o + ['end Polymers.Props', '']))

if __name__ == '__main__': main()
