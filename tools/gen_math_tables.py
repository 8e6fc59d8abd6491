#!/usr/bin/env python3
"""Copies the coefficient tables of /repo/src/math/mod.rs into Verif/Model/MathTables.lean."""
import re
src = open('/repo/src/math/mod.rs').read().split('\n')
def num(s): return s.strip().rstrip(',').replace('_', '')
out = ['/- Generated by tools/gen_math_tables.py from /repo/src/math/mod.rs; do not edit by hand. -/',
       'import Verif.Model.Base', '', 'namespace Polymers.math', '', 'variable {α : Type} [Neg α] [OfScientific α]', '']
# coefficient arrays
names = ['bessel_i0_small', 'bessel_i0_medium', 'bessel_i0_large', 'bessel_i1_small', 'bessel_i1_medium', 'bessel_i1_large']
i = 0; k = 0
while i < len(src):
    if re.match(r'\s*let coefficients = \[', src[i]):
        j = i + 1; cs = []
        while '];' not in src[j]:
            cs.append(num(src[j])); j += 1
        def fix(c):
            if '.' not in c: c = c + '.0' if 'e' not in c else c
            return f'(-{c[1:]})' if c.startswith('-') else c
        out.append(f'/-- `src/math/mod.rs` lines {i+1}-{j+1}: `coefficients`. -/')
        out.append(f'def {names[k]} : List α :=\n  [' + ',\n   '.join(fix(c) for c in cs) + ']\n')
        k += 1; i = j
    i += 1
assert k == 6
# erfcx rows
rows = []
start = None
for i, l in enumerate(src):
    m = re.match(r'\s*(\d+)_u8 =>', l)
    if m:
        if start is None: start = i + 1
        n = int(m.group(1)); assert n == len(rows)
        t = re.match(r'\s*let t = 2\.0\*z - ([\d_.]+);', src[i + 2]); assert t, src[i+2]
        sh = num(t.group(1)); assert float(sh) == 2*n + 1
        body = src[i + 3].strip()
        parts = re.findall(r'\d[\d_]*\.[\d_]+(?:e[-+]?\d+)?', body)
        assert len(parts) == 7, body
        rebuilt = parts[0] + ' + (' + parts[1] + ' + (' + parts[2] + ' + (' + parts[3] + ' + (' + parts[4] + ' + (' + parts[5] + ' + ' + parts[6] + '*t)*t)*t)*t)*t)*t'
        assert rebuilt == body, (rebuilt, body)
        rows.append((sh, [num(p) for p in parts], i + 1)); end = i + 5
assert len(rows) == 100
out.append(f'/-- `src/math/mod.rs` lines {start}-{end}: the arms `0_u8 ..= 99_u8` of the `match` in `erfcx_helper`.')
out.append('Arm `i` is `let t = 2.0*z - s; c0 + (c1 + (c2 + (c3 + (c4 + (c5 + c6*t)*t)*t)*t)*t)*t`; its row is')
out.append('`(s, [c0, ..., c6])`.  The generator checks that every arm has this shape. -/')
out.append('def erfcx_table : List (α × List α) :=\n  [' + ',\n   '.join(f'({s}, [{", ".join(c)}])' for s, c, _ in rows) + ']\n')
out.append('end Polymers.math')
open('/verif/lean/Verif/Model/MathTables.lean', 'w').write('\n'.join(out) + '\n')
