#!/usr/bin/env python3
"""Translate the C interface (ex.rs) of the single-chain models into Lean 4: lean/Verif/Model/C<Model>.lean.

Uses the parser and the emitter of rust2lean.py.  Every `extern` function becomes one definition of the same name in
the namespace `Polymers.C`, since the exported symbols share one flat name space."""
import re, os, sys
sys.argv = sys.argv[:1]
import rust2lean as R
import py2lean

_ns = R.ns
def ns(mod):
    if 'ex' in mod: return 'Polymers.C'
    return _ns(mod)
R.ns = ns

def parse(path):
    text = open(path).read().replace('pub extern fn', 'pub fn')
    tmp = '/tmp/_ex2lean.rs'
    open(tmp, 'w').write(text)
    m = R.parse_file(tmp)
    m.path = path
    m.mod = os.path.relpath(os.path.dirname(path), R.SRC).split('/') + ['ex']
    return m

def load():
    py2lean.load()
    for d, _, fs in os.walk(R.SRC):
        if 'ex.rs' in fs and 'single_chain/' in d:
            m = parse(os.path.join(d, 'ex.rs'))
            R.MODS['/'.join(m.mod)] = m

def modules(prefix):
    return [m for k, m in R.MODS.items() if k.startswith(prefix + '/') and m.mod[-1] == 'ex' and 'monte_carlo' not in k]

def main():
    load()
    log = []
    for name, prefix, _ in R.GROUPS:
        txt = f'/- Generated by tools/ex2lean.py from the ex.rs files of /repo/src/{prefix} ; do not edit by hand. -/\n'
        txt += f'import Verif.Model.{name}\n\nset_option linter.unusedVariables false\n\nopen Polymers\n\n' + R.VARS + '\n\n'
        items = []
        for m in R.order(modules(prefix)): items += R.emit_module(m, {}, log)
        open(os.path.join(R.OUT, 'C' + name + '.lean'), 'w').write(txt + R.render(items))
    print('auto', sum(x[0] == 'auto' for x in log))
    for x in log:
        if x[0] == 'FAIL': print(*x)

if __name__ == '__main__': main()
