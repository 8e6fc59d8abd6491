#!/usr/bin/env python3
"""Write lean/Verif/Spec/ApiIeee.lean: the records of Spec/Api.lean with the methods evaluated in floating point."""
import re, os
ROOT = os.path.join(os.path.dirname(os.path.abspath(__file__)), '..', 'lean', 'Verif')
out = ['/- Generated by tools/gen_api_f.py ; do not edit by hand. -/', 'import Verif.Model.Ieee'] + \
  [f'import Verif.Model.{f}' for f in ['Ideal', 'Fjc', 'Efjc', 'Swfjc', 'LennardJones', 'LogSquared', 'Morse', 'Wlc']] + ['', '''/-!
The method families of `Verif/Spec/Api.lean` evaluated in floating point (`F64 P`); the arguments of the constructors and of the
methods are arbitrary floating-point numbers. -/

namespace Polymers.ApiF

open Polymers.Ieee

variable {P : Platform}

/-- `EnergyMethods` of `Verif/Spec/Api.lean` in floating point. -/
structure EnergyMethodsF (P : Platform) where
  energy : F64 P → F64 P → F64 P
  energy_per_link : F64 P → F64 P → F64 P
  relative : F64 P → F64 P → F64 P
  relative_per_link : F64 P → F64 P → F64 P
  nd_energy : F64 P → F64 P → F64 P
  nd_energy_per_link : F64 P → F64 P → F64 P
  nd_relative : F64 P → F64 P → F64 P
  nd_relative_per_link : F64 P → F64 P → F64 P

/-- `LengthMethods` of `Verif/Spec/Api.lean` in floating point. -/
structure LengthMethodsF (P : Platform) where
  length : F64 P → F64 P → F64 P
  length_per_link : F64 P → F64 P → F64 P
  nd_length : F64 P → F64 P → F64 P
  nd_length_per_link : F64 P → F64 P → F64 P

/-- `ForceMethods` of `Verif/Spec/Api.lean` in floating point. -/
structure ForceMethodsF (P : Platform) where
  force : F64 P → F64 P → F64 P
  nd_force : F64 P → F64 P → F64 P

/-- `DistributionMethods` of `Verif/Spec/Api.lean` in floating point. -/
structure DistributionMethodsF (P : Platform) where
  density : F64 P → F64 P
  nd_density : F64 P → F64 P
  radial : F64 P → F64 P
  nd_radial : F64 P → F64 P
''']
for f in ['Api']:
    t = open(f'{ROOT}/Spec/{f}.lean').read()
    i = t.index('open Polymers.Spec')
    body = t[t.index('\n', i):t.index('end Polymers.Api')].strip()
    body = re.sub(r'(Energy|Length|Force|Distribution)Methods :=', r'\1MethodsF P :=', body)
    body = body.replace(': ℝ)', ': F64 P)')
    out += [body, '']
out += ['end Polymers.ApiF', '']
open(f'{ROOT}/Spec/ApiIeee.lean', 'w').write('\n'.join(out))
