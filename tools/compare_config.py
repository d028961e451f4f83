#!/usr/bin/env python3
"""Compare the constants of the Lean model (Verif/Model/Config.lean) with the text of the configuration files.

usage (from /verif/lean, after `lake build Verif.Model.Config`):  python3 ../tools/compare_config.py /repo
"""
import os, re, shutil, subprocess, sys, tempfile
here = os.path.dirname(os.path.abspath(__file__))
root = sys.argv[1] if len(sys.argv) > 1 else '/repo'
KINDS = {'std::uint64_t': 'uint64', 'uint64_t': 'uint64', 'uint': 'uint', 'unsigned int': 'uint', 'std::uint32_t': 'uint', 'int': 'int',
         'eth::Gwei': 'slot', 'eth::Slot': 'slot', 'eth::Epoch': 'slot', 'eth::Version': 'bytes4', 'eth::Eth1Address': 'bytes20'}
def source(path):
    t = open(os.path.join(root, path)).read()
    t = re.sub(r'/\*.*?\*/', '', t, flags=re.S)
    t = re.sub(r'^\s*//.*$', '', t, flags=re.M)
    for stmt in re.findall(r'\bconstexpr\b[^;]*;', t):
        m = re.fullmatch(r'constexpr\s+(?:const\s+)?(\w[\w: ]*?)\s+(\w+)\s*(?:=\s*(.*)|\{\s*(.*)\})\s*;', stmt, re.S)
        ty, name, ini = m[1], m[2], (m[3] if m[3] is not None else m[4]).strip()
        if name.startswith('TEST_VECTORS'): continue
        if ty == 'auto':
            b = re.fullmatch(r'([\w:]+)\{(.*)\}', ini)
            ty, ini = (b[1], b[2]) if b else ('uint64_t', ini)
        if ini.startswith('"'): v = 'str ' + ini[1:-1]
        else:
            n = re.fullmatch(r'(?i)(0x[0-9a-f]+|\d+)(ull)?', ini)
            v = ('hexull' if n[2] else 'hex' if n[1].lower().startswith('0x') else 'dec') + ' ' + str(int(n[1], 0))
        yield f'{path} {name} {KINDS[ty]} {v}'
printer = os.path.join(tempfile.mkdtemp(), 'PrintConfig.lean')
shutil.copy(here + '/print_config.txt', printer)
mod = subprocess.run(['lake', 'env', 'lean', '--run', printer], capture_output=True, text=True, check=True).stdout.splitlines()
src = [l for p in ['config/mainnet.hpp.in', 'config/minimal.hpp.in', 'config/constants.hpp', 'ssz/ssz.hpp'] for l in source(p)]
for l in sorted(set(src) ^ set(mod)): print('source' if l in src else 'model ', l)
print('%d constants: %s' % (len(src), 'equal' if src == mod else 'DIFFERENT'))
sys.exit(0 if src == mod else 1)
