#!/usr/bin/env python3
"""Write lean/Verif/Spec/Api.lean: for every public struct of the generated model that has methods, the records of
Verif/Spec/Ensembles.lean filled with the methods of that struct as reached from the top-level constructor."""
import re, os
ROOT = os.path.join(os.path.dirname(os.path.abspath(__file__)), '..', 'lean', 'Verif')
FILES = ['Ideal', 'Fjc', 'Efjc', 'Swfjc', 'LennardJones', 'LogSquared', 'Morse', 'Wlc']
TOP = {'Ideal': ('ideal', 'Ideal'), 'Fjc': ('fjc', 'FJC'), 'Efjc': ('efjc', 'EFJC'), 'Swfjc': ('swfjc', 'SWFJC'),
       'LennardJones': ('ufjc.lennard_jones', 'LENNARDJONESFJC'), 'LogSquared': ('ufjc.log_squared', 'LOGSQUAREDFJC'),
       'Morse': ('ufjc.morse', 'MORSEFJC'), 'Wlc': ('wlc', 'WLC')}

def structs(f):
    ns, out = None, {}
    for line in open(f'{ROOT}/Model/{f}.lean'):
        m = re.match(r'namespace (\S+)', line)
        if m: ns = m.group(1)
        m = re.match(r'def ([A-Z]+[A-Za-z]*)\.(\w+) (.*?) : (\S+( α)?) :=', line)
        if m:
            a = [x for x in re.findall(r'\((\w+) : ', m.group(3)) if x != 'self']
            out.setdefault((ns.replace('Polymers.', ''), m.group(1)), {})[m.group(2)] = a
    return out

EN = [('energy', '{}_free_energy'), ('energy_per_link', '{}_free_energy_per_link'), ('relative', 'relative_{}_free_energy'),
      ('relative_per_link', 'relative_{}_free_energy_per_link'), ('nd_energy', 'nondimensional_{}_free_energy'),
      ('nd_energy_per_link', 'nondimensional_{}_free_energy_per_link'),
      ('nd_relative', 'nondimensional_relative_{}_free_energy'),
      ('nd_relative_per_link', 'nondimensional_relative_{}_free_energy_per_link')]
LEN = [('length', 'end_to_end_length'), ('length_per_link', 'end_to_end_length_per_link'),
       ('nd_length', 'nondimensional_end_to_end_length'), ('nd_length_per_link', 'nondimensional_end_to_end_length_per_link')]
FORCE = [('force', 'force'), ('nd_force', 'nondimensional_force')]
DIST = [('density', 'equilibrium_distribution'), ('nd_density', 'nondimensional_equilibrium_distribution'),
        ('radial', 'equilibrium_radial_distribution'), ('nd_radial', 'nondimensional_equilibrium_radial_distribution')]

def entries():
    """yield (id, kind, record, ns, struct, top args, fields, family)"""
    for f in FILES:
        top, tname = TOP[f]
        for (ns, st), methods in structs(f).items():
            if 'modified_canonical' in ns or len(methods) == 1: continue
            init = methods['init']
            path = ns[len(top) + 1:]
            ident = ns.replace('ufjc.', '').replace('.thermodynamics', '').replace('.', '_')
            fams = [('gibbs', 'EnergyMethods', [(a, b.format('gibbs')) for a, b in EN]),
                    ('helmholtz', 'EnergyMethods', [(a, b.format('helmholtz')) for a, b in EN]),
                    ('lengths', 'LengthMethods', LEN), ('forces', 'ForceMethods', FORCE),
                    ('distribution', 'DistributionMethods', DIST)]
            for fam, rec, fields in fams:
                have = [m for _, m in fields if m in methods]
                if not have: continue
                assert len(have) == len(fields), (ns, fam, have)
                yield ident + '_' + fam, rec, ns, st, top, tname, path, init, [(a, b, methods[b]) for a, b in fields], fam

BINDERS = {'number_of_links': ('N', 'ℕ'), 'link_length': ('ℓ', 'ℝ'), 'hinge_mass': ('m', 'ℝ'), 'link_stiffness': ('k', 'ℝ'),
           'link_energy': ('ε', 'ℝ'), 'well_width': ('w', 'ℝ'), 'persistance_length': ('p', 'ℝ')}

def main():
    out = ['/- Generated by tools/gen_api.py ; do not edit by hand. -/', 'import Verif.Spec.Ensembles',
           'import Verif.Model.RealInst'] + [f'import Verif.Model.{f}' for f in FILES] + ['', '''/-!
The method families of every public single-chain struct, as records of `Verif/Spec/Ensembles.lean`.
Each is reached from the top-level constructor of its model, e.g. `fjc_isotensional_gibbs N ℓ m` collects the Gibbs
free energy methods of `FJC::init(N, ℓ, m).thermodynamics.isotensional`.  The constructor arguments are `N` number of
links, `ℓ` link length, `m` hinge mass, and `k` link stiffness, `ε` link energy, `w` well width, `p` persistence length
where the model has them. -/''', '', 'namespace Polymers.Api', '', 'open Polymers.Spec', '']
    for ident, rec, ns, st, top, tname, path, init, fields, fam in entries():
        b = ' '.join(f'({BINDERS[x][0]} : {BINDERS[x][1]})' for x in init)
        args = ' '.join(BINDERS[x][0] for x in init)
        src = 'src/physics/single_chain/' + ns.replace('.', '/') + '/mod.rs'
        out.append(f'/-- `{src}`: the {fam} methods of `{st}`. -/')
        out.append(f'noncomputable def {ident} {b} : {rec} :=')
        out.append(f'  let s := (Polymers.{top}.{tname}.init {args}).{path}')
        L = []
        for a, meth, margs in fields:
            if rec == 'DistributionMethods': L.append(f'{a} := fun x => s.{meth} x')
            elif len(margs) == 2: L.append(f'{a} := fun x T => s.{meth} x T')
            else: L.append(f'{a} := fun x _ => s.{meth} x')
        out.append('  { ' + '\n    '.join(L) + ' }')
        out.append('')
    out += ['end Polymers.Api', '']
    open(f'{ROOT}/Spec/Api.lean', 'w').write('\n'.join(out))

if __name__ == '__main__': main()
