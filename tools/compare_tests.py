#!/usr/bin/env python3
"""Compare the tables of the test programs (blocks, digests, list of conformance tests) of the Lean model with the text of the C++ sources.

usage (from /verif/lean, after `lake build Verif.Model.Programs Verif.Model.Access`):  python3 ../tools/compare_tests.py /repo
"""
import os, re, shutil, subprocess, sys, tempfile
here = os.path.dirname(os.path.abspath(__file__))
root = sys.argv[1] if len(sys.argv) > 1 else '/repo'
printer = os.path.join(tempfile.mkdtemp(), 'PrintTests.lean')
shutil.copy(here + '/print_tests.txt', printer)
mod = subprocess.run(['lake', 'env', 'lean', '--run', printer], capture_output=True, text=True, check=True).stdout.splitlines()
src = []
text = open(root + '/ssz/test_sha256.cpp').read()
for name in ['test_8_block', 'test_1_digest', 'test_4_digests', 'test_8_digests']:
    body = re.search(name + r'\s*(?:=\s*)?\{([^}]*)\}', text).group(1)
    src.append(name + ' ' + ' '.join(str(int(x, 16)) for x in re.findall(r'0x[0-9a-fA-F]+', body)))
text = open(root + '/beacon-chain/test/test_ssz.cpp').read()
fns = {a: (b, c) for a, b, c in re.findall(r'const auto (\w+) = \[\]\(\) \{ test_ssz<eth::(\w+)>\("(\w+)"\); \};', text)}
for a, b in re.findall(r'\{"(\w+)", (\w+)\}', text):
    src.append('test %s %s %s' % ((a,) + fns[b]))
src.append('BENCH_ROUNDS ' + re.search(r'BENCH_ROUNDS = (\d+)', open(root + '/bench/bench_sha256_impl.cpp').read()).group(1))
text = open(root + '/common/bytes_test.cpp').read()
num = lambda l: ' '.join(str(int(x, 0)) for x in re.findall(r'0x[0-9a-f]+', l))
for n, g, bits, v, n2, e, l, e2, g2 in re.findall(r'eth::Bytes(\d+) (\w+)\(std::uint(\d+)_t\((\w+)\)\);.*\n\s*eth::Bytes(\d+) (\w+)\(\{(.*)\}\);.*\n\s*TEST_CHECK\((\w+) == (\w+)\);', text):
    assert n == n2 and int(bits) == 8 * int(n) and (e, g) == (e2, g2)
    src.append('from_int %s %s %s' % (n, int(v, 0), num(l)))
ints = {}
for part in re.split(r'\n\s*\n', text[text.index('void test_bytes_to_integer'):text.index('TEST_LIST')]):
    m = re.search(r'eth::Bytes(\d+) (\w+)[({](.*)[)}];', part)
    if not m: continue
    n, g, l = m.groups()
    e, v = re.search(r'std::uint%d_t (\w+)(?:\{| = )(\w+)' % (8 * int(n)), part).groups()
    ints[e] = int(v, 0) if v.startswith('0x') else ints[v]
    assert 'TEST_CHECK(%s == %s.to_integer_little_endian<std::uint%d_t>());' % (e, g, 8 * int(n)) in part
    src.append('to_int %s %s %s' % (n, ints[e], num(l)))
for a, b in re.findall(r'\{"(\w+)", test_(\w+)\}', text):
    assert a == b
    src.append('bytes_test ' + a)
for a, b in zip(src, mod):
    if a != b: print('source', a[:200]); print('model ', b[:200])
print('%d lines: %s' % (len(mod), 'equal' if src == mod else 'DIFFERENT'))
sys.exit(0 if src == mod else 1)
