#!/usr/bin/env python3
"""Compare the class declarations and preset constants of the Lean model with the text of the C++ sources.

usage (from /verif/lean, after `lake build Verif.Model.Source`):  python3 ../tools/compare_classes.py /repo

extract_classes.py reads the sources as text; the model is printed by print_classes.txt (a Lean program).
"""
import os, re, shutil, subprocess, sys, tempfile
here = os.path.dirname(os.path.abspath(__file__))
root = sys.argv[1] if len(sys.argv) > 1 else '/repo'
printer = os.path.join(tempfile.mkdtemp(), 'PrintClasses.lean')
shutil.copy(here + '/print_classes.txt', printer)
src = subprocess.run([sys.executable, here + '/extract_classes.py', root], capture_output=True, text=True, check=True).stdout.splitlines()
mod = subprocess.run(['lake', 'env', 'lean', '--run', printer], capture_output=True, text=True, check=True).stdout.splitlines()
def classes(ls): return [l.rstrip() for l in ls if l.startswith('class') or l.startswith('  ')]
def values(ls):
    out = {}
    for l in ls:
        p = l.split()
        if p[0] in ('preset', 'constant'):
            v = re.sub(r'(?i)u?l*$', '', p[-1])
            out[tuple(p[:-1])] = int(v, 0) if re.fullmatch(r'(?i)0x[0-9a-f]+|\d+', v) else v
    return out
ok = classes(src) == classes(mod)
if not ok:
    for a, b in zip(classes(src), classes(mod)):
        if a != b: print('source', a); print('model ', b)
vs, vm = values(src), values(mod)
for k, v in vm.items():
    if vs.get(k) != v: ok = False; print('source', k, vs.get(k), 'model', v)
print('%d classes, %d constants: %s' % (sum(l.startswith('class') for l in mod), len(vm), 'equal' if ok else 'DIFFERENT'))
sys.exit(0 if ok else 1)
