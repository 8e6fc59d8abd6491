#!/usr/bin/env python3
"""Translate the Python bindings (py.rs) of the single-chain models into Lean 4: lean/Verif/Model/Python<Model>.lean.

Uses the parser and the emitter of rust2lean.py.  A `#[pyclass]` struct becomes a structure in the namespace
`Polymers.Python.<module path>`, each of its methods a definition.  A `numpy` array is its shape and its
entries (`NdArray`), `mapv` is `NdArray.mapv`.  Module registration is not modelled."""
import re, os, sys
sys.argv = sys.argv[:1]
import rust2lean as R

def blank(m): return '\n' * m.group(0).count('\n')

def prepare(text):
    text = re.sub(r'use (pyo3|numpy)::.*?;', blank, text, flags=re.S)
    text = re.sub(r'pub fn register_module.*?\n\}', blank, text, flags=re.S)
    text = re.sub(r'#\[[^\]]*\]', '', text)
    text = text.replace("<'py>(", '(').replace("py: Python<'py>, ", '')
    text = text.replace('PyReadonlyArrayDyn<f64>', 'Vec<f64>').replace("&'py PyArrayDyn<f64>", 'Vec<f64>')
    text = text.replace('.as_array()', '').replace('.into_pyarray(py)', '')
    return text

_ns = R.ns
def ns(mod):
    if 'py' in mod: return _ns([x for x in mod if x != 'py']).replace('Polymers', 'Polymers.Python', 1)
    return _ns(mod)
R.ns = ns

class Emit(R.Emit):
    def e(s, e):
        if e[0] == 'method' and e[2] == 'mapv':
            em = Emit(s.mod, s.scope, s.fn)
            (v, _t), = e[3][0][1]
            em.scope[v] = 'α'
            return f'NdArray.mapv {s.at(e[1])} (fun ({v} : α) => {em.e(e[3][0][2])[0]})', 90
        return super().e(e)
R.Emit = Emit

def parse(path):
    text = prepare(open(path).read())
    tmp = '/tmp/_py2lean.rs'
    open(tmp, 'w').write(text)
    m = R.parse_file(tmp)
    m.path = path
    m.mod = os.path.relpath(os.path.dirname(path), R.SRC).split('/') + ['py']
    return m

def load():
    for d, _, fs in os.walk(R.SRC):
        rel = os.path.relpath(d, R.SRC)
        if 'mod.rs' in fs:
            if 'constitutive' in rel or 'monte_carlo' in rel or rel == 'math':
                m = R.Module(); m.mod = rel.split('/'); m.uses = {}; m.consts = []; m.structs = []; m.impls = []
                m.path = os.path.join(d, 'mod.rs'); m.fns = [{'name': x} for x in re.findall(r'fn (\w+)', open(m.path).read())]
            else: m = R.parse_file(os.path.join(d, 'mod.rs'))
            R.MODS['/'.join(m.mod)] = m
    for d, _, fs in os.walk(R.SRC):
        rel = os.path.relpath(d, R.SRC)
        if 'py.rs' in fs and 'single_chain/' in rel:
            m = parse(os.path.join(d, 'py.rs'))
            R.MODS['/'.join(m.mod)] = m

def main():
    load()
    log = []
    for name, prefix, _ in R.GROUPS:
        ms = [m for k, m in R.MODS.items() if k.startswith(prefix + '/') and m.mod[-1] == 'py' and 'monte_carlo' not in k]
        txt = f'/- Generated by tools/py2lean.py from the py.rs files of /repo/src/{prefix} ; do not edit by hand. -/\n'
        txt += f'import Verif.Model.{name}\nimport Verif.Model.PythonBase\n\nset_option linter.unusedVariables false\n\nopen Polymers\n\n' + R.VARS + '\n\n'
        items = []
        for m in R.order(ms): items += R.emit_module(m, {}, log)
        open(os.path.join(R.OUT, 'Python' + name + '.lean'), 'w').write(txt + R.render(items).replace(' : List α', ' : NdArray α'))
    print('auto', sum(x[0] == 'auto' for x in log))
    for x in log:
        if x[0] == 'FAIL': print(*x)

if __name__ == '__main__': main()
