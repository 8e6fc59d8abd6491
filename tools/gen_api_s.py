#!/usr/bin/env python3
"""Write lean/Verif/Spec/ApiDefined.lean: the records of Spec/Api.lean and Spec/ApiPotential.lean with the methods evaluated
over SReal (reals with explicit undefined values and panics) instead of the reals."""
import re, os
ROOT = os.path.join(os.path.dirname(os.path.abspath(__file__)), '..', 'lean', 'Verif')
out = ['/- Generated by tools/gen_api_s.py ; do not edit by hand. -/', 'import Verif.Spec.Defined', 'import Verif.Model.SReal'] + \
  [f'import Verif.Model.{f}' for f in ['Ideal', 'Fjc', 'Efjc', 'Swfjc', 'LennardJones', 'LogSquared', 'Morse', 'Wlc']] + ['', '''/-!
The method families of `Verif/Spec/Api.lean` and `Verif/Spec/ApiPotential.lean` evaluated over `SReal`, where an operation
outside its domain gives `undef` and a panic gives `panic`.  The constructor arguments are real numbers. -/''', '',
  'namespace Polymers.ApiS', '', 'open Polymers.Spec Polymers.SReal', '']
for f in ['Api', 'ApiPotential']:
    t = open(f'{ROOT}/Spec/{f}.lean').read()
    i = t.index('open Polymers.Spec') 
    body = t[t.index('\n', i):t.index('end Polymers.Api')].strip()
    body = re.sub(r'(Energy|Length|Force|Distribution)Methods :=', r'\1MethodsS :=', body)
    def init(m):
        args = m.group(2).split()
        return m.group(1) + ' ' + ' '.join(a if a == 'N' else f'(val {a})' for a in args) + ')'
    body = re.sub(r'(\(Polymers\.[\w.]*\.init)((?: \S+?)*)\)', init, body)
    def call(m):
        a = m.group(2)
        a = a.replace('(ndStiffness K ℓ T)', '@')
        a = re.sub(r' ([xTK])(?= |$)', r' (val \1)', a)
        return m.group(1) + a.replace('@', '(val (ndStiffness K ℓ T))') + (m.group(3) or '')
    body = re.sub(r'(=> s\.\w+)(.*?)( })?$', call, body, flags=re.M)
    out += [body, '']
out += ['end Polymers.ApiS', '']
open(f'{ROOT}/Spec/ApiDefined.lean', 'w').write('\n'.join(out))
