#!/usr/bin/env python3
"""Write lean/Verif/Props/Scaling<Model>.lean: for every family of methods of every public single-chain struct
(`Verif/Spec/Api.lean`) the scaling theorem (C15), for every free energy the reference-state and hinge-mass theorems
(C16) and for every equilibrium distribution the scaling theorem (C36)."""
import re, os
import gen_api as G

# definitions that have to be unfolded in addition to those of the module itself
EXTRA = {
    'wlc_isometric_legendre_gibbs': ['wlc.thermodynamics.isometric.nondimensional_helmholtz_free_energy',
                                     'wlc.thermodynamics.isometric.nondimensional_helmholtz_free_energy_per_link'],
    'wlc_isotensional_legendre_helmholtz': ['wlc.thermodynamics.isotensional.nondimensional_gibbs_free_energy',
                                            'wlc.thermodynamics.isotensional.nondimensional_gibbs_free_energy_per_link',
                                            'wlc.thermodynamics.isotensional.nondimensional_end_to_end_length'],
}
# relative energies that are not the generic `energy - energy at 1e-6`; proved by hand in Props/Relative.lean
BY_HAND = {'ideal_isometric_helmholtz', 'ideal_isotensional_gibbs', 'fjc_isotensional_gibbs',
           'fjc_isotensional_legendre_helmholtz', 'fjc_isometric_legendre_helmholtz', 'fjc_isometric_legendre_gibbs', 'fjc_isometric_helmholtz',
           'wlc_isotensional_gibbs', 'wlc_isotensional_legendre_helmholtz'}
SAMPLE = {'N': '8', 'ℓ': '1', 'm': '1', 'k': '500', 'ε': '80', 'w': '(1 / 2)', 'p': '2'}

def free_functions():
    free = {}
    for f in G.FILES:
        ns = None
        for line in open(f'{G.ROOT}/Model/{f}.lean'):
            m = re.match(r'namespace (\S+)', line)
            if m: ns = m.group(1)
            m = re.match(r'def (\w+) ', line)
            if m and ns: free.setdefault(ns.replace('Polymers.', ''), []).append(m.group(1))
    return free

def wrap(l, ind):
    s, cur = '', ' ' * ind
    for i, x in enumerate(l):
        t = x + (', ' if i < len(l) - 1 else '')
        if len(cur) + len(t) > 116: s += cur.rstrip() + '\n'; cur = ' ' * ind
        cur += t
    return s + cur

CORE = {'gibbs': 'nondimensional_gibbs_free_energy_per_link', 'helmholtz': 'nondimensional_helmholtz_free_energy_per_link',
        'lengths': 'nondimensional_end_to_end_length_per_link', 'forces': 'nondimensional_force',
        'distribution': 'nondimensional_equilibrium_distribution'}

def main():
    free = free_functions()
    out = {f: [] for f in G.FILES}
    for ident, rec, ns, st, top, tname, path, init, fields, fam in G.entries():
        f = [k for k, v in G.TOP.items() if v[0] == top][0]
        names = [G.BINDERS[x][0] for x in init]
        b = ' '.join(f'({G.BINDERS[x][0]} : {G.BINDERS[x][1]})' for x in init)
        a = ' '.join(names)
        sa = ' '.join(SAMPLE[x] for x in names)
        sig = lambda args, N, l: args
        isot = 'isotensional' in ns
        def stm(N, l):
            nd = f'(ndForce {l})' if isot else f'(ndLength {N} {l})'
            return {'EnergyMethods': f'.Scales {N} {nd}', 'LengthMethods': f'.Scales {N} {l} {nd}',
                    'ForceMethods': f'.Scales {l} {nd}', 'DistributionMethods': f'.Scales Real.pi {N} {l}'}[rec]
        cur = top
        ul = [f'Polymers.{top}.{tname}.init']
        for p in path.split('.'):
            cur += '.' + p
            ul.append(f'Polymers.{cur}.{tname}.init')
        ul += [f'Polymers.{ns}.{st}.{m}' for _, m, _ in fields]
        core = CORE[fam]
        if top == 'wlc' or ns == 'fjc.thermodynamics.isometric': core = core.replace('_per_link', '')
        ul += [f'Polymers.{ns}.{x}' for x in free[ns] if x in [m for _, m, _ in fields] and x != core]
        us = [f'Polymers.{ns}.{core}'] + ['Polymers.' + x for x in EXTRA.get(ident, [])]
        src = 'src/physics/single_chain/' + ns.replace('.', '/') + '/mod.rs'
        L = out[f]
        if rec == 'DistributionMethods':
            if top == 'ideal': continue
            L.append(f'/-- C36 for the distribution methods of `{src}`. -/\n'
                     f'theorem C36_scales_{ident} {b} (hN : 0 < N) (hℓ : 0 < ℓ) :\n    ({ident} {a}){stm("N", "ℓ")} := by\n'
                     f'  distribution_tac hN hℓ [{ident},\n{wrap(ul, 4)}]\n')
            L.append(f'example : ({ident} {sa}){stm("8", "1")} :=\n  C36_scales_{ident} {sa} (by norm_num) (by norm_num)\n')
            continue
        L.append(f'/-- C15 for the {fam} methods of `{src}`. -/\n'
                 f'theorem C15_{ident} {b} (hN : 0 < N) (hℓ : 0 < ℓ) :\n    ({ident} {a}){stm("N", "ℓ")} := by\n'
                 f'  scaling_tac hN hℓ [{ident},\n{wrap(ul, 4)}]\n    [{(","+chr(10)+"    ").join(us)}]\n')
        L.append(f'example : ({ident} {sa}){stm("8", "1")} :=\n  C15_{ident} {sa} (by norm_num) (by norm_num)\n')
        if rec == 'EnergyMethods':
            nd = lambda N, l: f'(ndForce {l})' if isot else f'(ndLength {N} {l})'
            if ident not in BY_HAND:
                L.append(f'/-- C16 for the {fam} methods of `{src}`. -/\n'
                     f'theorem C16_reference_{ident} {b} (hN : 0 < N) (hℓ : 0 < ℓ) :\n    ({ident} {a}).RelativeTo {nd("N", "ℓ")} 1e-6 := by\n'
                     f'  refine EnergyMethods.RelativeTo.of_nd hN (C15_{ident} {a} hN hℓ) ?_\n'
                     f'  relative_tac hN [{ident},\n{wrap(ul, 4)}]\n    [{(","+chr(10)+"    ").join(us)}]\n')
                L.append(f'example : ({ident} {sa}).RelativeTo {nd("8", "1")} 1e-6 :=\n  C16_reference_{ident} {sa} (by norm_num) (by norm_num)\n')
            if 'm' in names:
                a2 = ' '.join("m'" if x == 'm' else x for x in names)
                L.append(f'/-- C16: the hinge mass does not enter the relative {fam} energies of `{src}`. -/\n'
                         f"theorem C16_mass_{ident} {b} (m' : ℝ) :\n    ({ident} {a}).SameRelative ({ident} {a2}) :=\n  ⟨rfl, rfl, rfl, rfl⟩\n")
    for f in G.FILES:
        L = ['/- Generated by tools/gen_scaling.py ; do not edit by hand. -/', 'import Verif.Spec.Api', 'import Verif.Lemmas.Scaling', '',
             'set_option maxRecDepth 4000', 'set_option maxHeartbeats 1000000', '', 'namespace Polymers.Props', '',
             'open Polymers.Spec Polymers.Api', ''] + out[f] + ['end Polymers.Props', '']
        open(f'{G.ROOT}/Props/Scaling{f}.lean', 'w').write('\n'.join(L))

if __name__ == '__main__': main()
