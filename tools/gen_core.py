#!/usr/bin/env python3
"""Write lean/Verif/Lemmas/ApiCore.lean: the nondimensional per-link method of every record of Verif/Spec/Api.lean as
the free function it evaluates."""
import gen_api as G, gen_methods as M

CORE = {'gibbs': ('nd_energy_per_link', 'nondimensional_gibbs_free_energy_per_link'),
        'helmholtz': ('nd_energy_per_link', 'nondimensional_helmholtz_free_energy_per_link'),
        'lengths': ('nd_length_per_link', 'nondimensional_end_to_end_length_per_link'),
        'forces': ('nd_force', 'nondimensional_force')}

def main():
    out = ['/- Generated by tools/gen_core.py ; do not edit by hand. -/', 'import Verif.Spec.Api', 'import Verif.Lemmas.Scaling', '',
           'namespace Polymers', '', 'open Polymers.Spec Polymers.Api', '']
    parsed = {G.TOP[f][0]: M.parse(f) for f in G.FILES}
    for ident, rec, ns, st, top, tname, path, init, fields, fam in G.entries():
        if fam == 'distribution' or (ns, CORE[fam][1]) in M.BY_HAND: continue
        free, meth, _ = parsed[top]
        field, mn = CORE[fam]
        margs = [x for x, _ in meth[(ns, st)][mn]]
        b = ' '.join(f'({G.BINDERS[x][0]} : {G.BINDERS[x][1]})' for x in init)
        a = ' '.join(G.BINDERS[x][0] for x in init)
        def val(x, code):
            if x == 'temperature': return 'T'
            if x in margs: return 'y'
            v = M.value(x, margs, 's').replace('temperature', 'T').replace('(N : α)', '(N : ℝ)')
            if code: return v
            return {'nondimensional_link_stiffness': '(ndStiffness k ℓ T)', 'nondimensional_link_energy': '(ndEnergy ε T)',
                    'nondimensional_persistance_length': '(p / N / ℓ)'}.get(x, v)
        args = [x for x, _ in free[(ns, mn)]]
        f = f'Polymers.{ns}.{mn}'
        code = ' '.join([f] + [val(x, True) for x in args])
        spec = ' '.join([f] + [val(x, False) for x in args])
        out.append(f'@[api_core] theorem core_{ident} {b} (y T : ℝ) :\n    ({ident} {a}).{field} y T =\n      {spec} := by\n'
                   f'  have h : ({ident} {a}).{field} y T =\n      {code} := rfl\n'
                   + ('  rw [h, ndStiffness_code, ndEnergy_code]\n' if 'ndEnergy' in spec else
                      '  rw [h, ndStiffness_code]\n' if 'ndStiffness' in spec else '  exact h\n'))
    out += ['end Polymers', '']
    open(f'{G.ROOT}/Lemmas/ApiCore.lean', 'w').write('\n'.join(out))

if __name__ == '__main__': main()
