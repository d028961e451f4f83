#!/usr/bin/env python3
"""Compare the instruction lists and data sections of the Lean model with the text of the assembly sources.

usage (from /verif/lean, after `lake build Verif.Model.Sha256Code`):  python3 ../tools/compare_asm.py /repo

The macros are expanded as text by nasm_expand.py; the model is printed by print_asm.txt (a Lean program).
"""
import os, re, shutil, subprocess, sys, tempfile
here = os.path.dirname(os.path.abspath(__file__))
root = sys.argv[1] if len(sys.argv) > 1 else '/repo'
printer = os.path.join(tempfile.mkdtemp(), 'PrintAsm.lean')
shutil.copy(here + '/print_asm.txt', printer)
FILES = [('one', 'sha256_avx_one_block'), ('four', 'sha256_avx'), ('eight', 'sha256_avx2'), ('shani', 'sha256_shani')]

def source(name):
    out = subprocess.run([sys.executable, here + '/nasm_expand.py', f'{root}/ssz/{name}.asm', root], capture_output=True, text=True, check=True).stdout
    labels, text, data = {}, [], {}
    lines = [l.rstrip() for l in out.splitlines()]
    for l in lines:
        p = l.split()
        if p[0] == 'label': labels[p[1]] = (p[2], int(p[3]))
    for l in lines:
        p = l.split()
        if p[0] == 'text':
            l = re.sub(r'\[([A-Za-z_][A-Za-z_0-9]*)\+(\d+)\]',
                       lambda m: '[%s:%d]' % (labels[m[1]][0], labels[m[1]][1] + int(m[2])) if m[1] in labels else m[0], l)
            text.append(l)
        elif p[0] == 'data': data[(p[1], int(p[2]))] = int(p[3], 16)
    return text, data, labels

def norm(t):
    # two-operand form of vpshufb: the destination is the first source
    m = re.fullmatch(r'text vpshufb (\w+),(\w+)', t)
    if m: t = f'text vpshufb {m[1]},{m[1]},{m[2]}'
    t = re.sub(r'\[(\w+)\+(\w+)\+(\w+)\]', lambda m: '[%s+%s]' % ('+'.join(sorted([m[1], m[2]])), m[3]), t)
    return t

ok = True
for arg, name in FILES:
    text, data, labels = source(name)
    out = subprocess.run(['lake', 'env', 'lean', '--run', printer, arg], capture_output=True, text=True, check=True).stdout
    mtext = [norm(l.rstrip()) for l in out.splitlines() if l.startswith('text')]
    mdata = {}
    for l in out.splitlines():
        p = l.split()
        if p[0] == 'data': mdata[(p[1], int(p[2]))] = int(p[3], 16)
    # labels that are not jump targets are dropped from the source listing
    targets = {t.split()[2] for t in text if re.match(r'text (jmp|jl|jb|jz|call) ', t)}
    text = [norm(t) for t in text]
    used = {t.split()[2] for t in mtext if t.startswith('text label')}
    text = [t for t in text if not (t.startswith('text label') and t.split()[2] not in used and t.split()[2] not in targets)]
    i = j = 0
    bad = None
    while i < len(text) or j < len(mtext):
        s = text[i] if i < len(text) else None
        m = mtext[j] if j < len(mtext) else None
        if m is not None and m.startswith('text jmp?'):
            if s == m.replace('jmp?', 'jmp'): i += 1
            j += 1
            continue
        if s != m: bad = (i, s, j, m); break
        i += 1; j += 1
    msec = {k[0] for k in mdata}
    sdata = {k: v for k, v in data.items() if k[0] in msec}
    d = {k for k in set(sdata) | set(mdata) if sdata.get(k) != mdata.get(k)}
    if bad or d: ok = False
    print(name, len(text), 'source lines', 'text', 'same' if not bad else f'DIFFERS {bad}', '| data', len(mdata), 'words', 'same' if not d else f'DIFFERS {sorted(d)[:5]}')
sys.exit(0 if ok else 1)
