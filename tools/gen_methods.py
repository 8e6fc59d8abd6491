#!/usr/bin/env python3
"""Write lean/Verif/Props/Methods<Model>.lean: for every public struct reached from a top-level constructor, that the
constructor stored the inputs (C37) and that every method is the free function of the same name at the stored inputs
(C38).  The arguments of the free function are chosen by parameter name, not by looking at the method's body."""
import re
import gen_api as G

# the method's body is not a call of the free function; proved over the reals in Props/Methods.lean
BY_HAND = {('efjc.thermodynamics.isotensional.asymptotic.legendre', 'nondimensional_helmholtz_free_energy_per_link')}
SRC = 'src/physics/single_chain/'

def parse(f):
    ns, free, meth, fields = None, {}, {}, {}
    lines = open(f'{G.ROOT}/Model/{f}.lean').read().split('\n')
    for i, line in enumerate(lines):
        m = re.match(r'namespace (\S+)', line)
        if m: ns = m.group(1).replace('Polymers.', '')
        m = re.match(r'def ([A-Za-z_.0-9]+) (.*?) : (\S+( α)?|List α) :=', line)
        if m:
            a = [x for x in re.findall(r'\((\w+) : ([^)]*)\)', m.group(2)) if x[0] != 'self']
            if '.' in m.group(1):
                st, mn = m.group(1).split('.')
                meth.setdefault((ns, st), {})[mn] = a
            else: free[(ns, m.group(1))] = a
        m = re.match(r'structure (\w+) ', line)
        if m:
            cur = fields.setdefault((ns, m.group(1)), [])
            for l in lines[i + 1:]:
                if l.strip() == '': break
                k = re.match(r'  (\w+) : (.*)', l)
                if k: cur.append((k.group(1), k.group(2)))
    return free, meth, fields

def value(x, margs, s):
    if x in margs: return x
    b = {k: v[0] for k, v in G.BINDERS.items()}
    if x in b: return b[x]
    return {'nondimensional_link_stiffness': '(k * Elem.powi ℓ 2 / BOLTZMANN_CONSTANT / temperature)',
            'nondimensional_link_energy': '(ε / BOLTZMANN_CONSTANT / temperature)',
            'nondimensional_persistance_length': '(p / (N : α) / ℓ)',
            'normalization_nondimensional_equilibrium_distribution':
                f'{s}.normalization_nondimensional_equilibrium_distribution'}[x]

def main():
    for f in G.FILES:
        top, tname = G.TOP[f]
        free, meth, fields = parse(f)
        out = ['/- Generated by tools/gen_methods.py ; do not edit by hand. -/', f'import Verif.Model.{f}', '',
               '/-! Properties C37 and C38.  Over any number type, so in particular over floating-point numbers. -/', '',
               'namespace Polymers.Props', '',
               'set_option linter.unusedSectionVars false', '', 'variable {α : Type} [Add α] [Sub α] [Mul α] [Div α] [Neg α] [OfScientific α] [NatCast α] [Elem α]', '']
        for (ns, st), ms in meth.items():
            init = [x for x, _ in ms['init']]
            b = ' '.join(f'({G.BINDERS[x][0]} : {G.BINDERS[x][1].replace("ℝ", "α").replace("ℕ", "Nat")})' for x in init)
            a = ' '.join(G.BINDERS[x][0] for x in init)
            path = ns[len(top):]
            s, full = 's', f'(Polymers.{top}.{tname}.init {a}){path}'
            let = f'let s := {full}\n    '
            ident = ns.replace('ufjc.', '').replace('.thermodynamics', '_thermodynamics' if ns.endswith('thermodynamics') else '').replace('.', '_')
            src = SRC + ns.replace('.', '/') + '/mod.rs'
            eqs = []
            for x, ty in fields[(ns, st)]:
                if x in G.BINDERS: eqs.append(f'{s}.{x} = {G.BINDERS[x][0]}')
            assert set(init) <= {x for x, _ in fields[(ns, st)]} | {'x'}, (ns, init, fields[(ns, st)])
            if path: eqs.append(f'{s} = Polymers.{ns}.{st}.init {a}')
            nl = ' ∧\n      '
            out.append(f'/-- C37: `{st}` of `{src}` as reached from `{tname}::init` holds the inputs. -/\n'
                       f'theorem C37_{ident} {b} :\n    {let}' + nl.join(eqs) + ' := by\n  exact '
                       + ('⟨' + ', '.join(['rfl'] * len(eqs)) + '⟩' if len(eqs) > 1 else 'rfl') + '\n')
            eqs, extra = [], ''
            ms = {k: v for k, v in ms.items() if k != 'init' and (ns, k) not in BY_HAND}
            for mn, ma in ms.items():
                names = [x for x, _ in ma]
                args = ' '.join(value(x, names, s) for x, _ in free[(ns, mn)])
                eqs.append(f'(∀ {" ".join(names)} : α, {s}.{mn} {" ".join(names)} =\n        Polymers.{ns}.{mn} {args})')
            if eqs:
                out.append(f'/-- C38: every method of `{st}` of `{src}` is the free function at the stored inputs. -/\n'
                           f'theorem C38_{ident} {b} :\n    {let}' + nl.join(eqs) + ' := by\n  exact '
                           + ('⟨' + ', '.join(['fun ' + '_ ' * len(ma) + '=> rfl' for mn, ma in ms.items()]) + '⟩' if len(eqs) > 1 else 'fun _ _ => rfl') + '\n')
        out += ['end Polymers.Props', '']
        open(f'{G.ROOT}/Props/Methods{f}.lean', 'w').write('\n'.join(out))

if __name__ == '__main__': main()
