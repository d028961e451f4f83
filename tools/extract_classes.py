#!/usr/bin/env python3
"""Extract from the text of the C++ sources what every container class declares: members, ssz_size, operator==, and the member lists of its
five operations, accessors; and the numeric constants of the two presets. Prints one line per fact.

usage: python3 extract_classes.py /repo
"""
import re, sys
root = sys.argv[1] if len(sys.argv) > 1 else '/repo'
FILES = ['common/containers.hpp', 'beacon-chain/attestation.hpp', 'beacon-chain/attestation.cpp', 'beacon-chain/eth1data.hpp',
         'beacon-chain/beacon_block.hpp', 'beacon-chain/deposits.hpp', 'beacon-chain/validator.hpp', 'beacon-chain/validator.cpp',
         'beacon-chain/beacon_state.hpp']

def strip(t):
    t = re.sub(r'/\*.*?\*/', '', t, flags=re.S)
    return re.sub(r'//[^\n]*', '', t)

def block(t, i):
    """text between the brace at t[i] and its partner"""
    d, j = 0, i
    while True:
        if t[j] == '{': d += 1
        if t[j] == '}':
            d -= 1
            if d == 0: return t[i + 1:j], j + 1
        j += 1

def split(t, sep=','):
    out, d, cur = [], 0, ''
    for c in t:
        if c in '{(<': d += 1
        if c in '})>': d -= 1
        if c == sep and d == 0: out.append(cur); cur = ''
        else: cur += c
    if cur.strip(): out.append(cur)
    return [re.sub(r'\s+', ' ', x).strip() for x in out]

def expr(e): return re.sub(r'(constants|eth|ssz)::', '', re.sub(r'\s+', ' ', e)).strip()

def body_list(name, b):
    """the list in `return serialize_({...});` etc."""
    m = re.search(r'\b' + name + r'_\s*\(', b)
    rest = b[m.end():]
    k = rest.index('{')
    inner, _ = block(rest, k)
    items = split(inner)
    out = []
    for x in items:
        if x.startswith('{'):
            a, p = split(x[1:-1])
            out.append(a.strip('"') + '=' + p.lstrip('&'))
        else: out.append(x.lstrip('&'))
    return out

OPS = ['serialize', 'deserialize', 'hash_tree', 'encode', 'decode']
classes, order = {}, []
texts = {f: strip(open(f'{root}/{f}').read()) for f in FILES}
for f in FILES:
    t = texts[f]
    for m in re.finditer(r'^\s*(struct|class)\s+(\w+)\s*:\s*public ssz::Container\s*\{', t, flags=re.M):
        name = m[2]
        pre = t[:m.start()].rstrip()
        if pre.endswith('>') and 'template' in pre[pre.rfind('\n'):]: continue   # class templates
        body, _ = block(t, m.end() - 1)
        c = dict(members=[], size=None, eq='inherited', ops={}, get=[])
        order.append(name); classes[name] = c
        # cut the body into declarations at depth 0
        i, cur = 0, ''
        while i < len(body):
            ch = body[i]
            if ch == '{':
                inner, j = block(body, i)
                cur += '{' + inner + '}'
                i = j
                if re.search(r'\)\s*(const)?\s*(noexcept)?\s*(override)?\s*\{', cur):   # a function body ends the declaration
                    decl = cur; cur = ''
                    mm = re.search(r'\b(serialize|deserialize|hash_tree|encode|decode)\s*\(', decl)
                    if mm and re.search(r'\b' + mm[1] + r'_\s*\(', decl): c['ops'][mm[1]] = body_list(mm[1], decl)
                    elif 'get_ssz_size' in decl: assert 'return ssz_size' in decl, decl
                    gm = re.search(r'(\w+)\s*\(\s*\)\s*const\s*\{\s*return\s+(\w+)\s*;\s*\}', decl)
                    if gm and gm[1] != 'get_ssz_size': c['get'].append(gm[1] + '=' + gm[2])
                    if re.search(r'operator\s*(==|!=|<=>)', decl): c['eq'] = 'custom'
                continue
            if ch == ';':
                decl = re.sub(r'\s+', ' ', cur).strip(); cur = ''
                i += 1
                decl = re.sub(r'^((private|public|protected) ?: ?)+', '', decl)
                if not decl: continue
                if re.search(r'operator ?==', decl): c['eq'] = 'defaulted' if decl.endswith('= default') else 'custom'; continue
                mm = re.match(r'static constexpr std::size_t ssz_size = (.*)', decl)
                if mm: c['size'] = expr(mm[1]); continue
                if re.search(r'\)\s*(const)?\s*(noexcept)?\s*(override)?$', decl): continue   # function declaration
                # data members
                parts = split(decl)
                mm = re.match(r'((?:[\w:]+)(?:<.*?>)?) (\w+)(\{.*\})?$', parts[0])
                ty = expr(mm[1])
                for k, p in enumerate(parts):
                    q = p if k else mm[2] + (mm[3] or '')
                    qm = re.match(r'(\w+)(?:\{(.*)\})?$', q)
                    c['members'].append((qm[1], ty, expr(qm[2]) if qm[2] else ''))
                continue
            cur += ch
            i += 1
    for m in re.finditer(r'(\w+)::(serialize|deserialize|hash_tree|encode|decode)\s*\([^)]*\)\s*(?:const)?\s*\{', t):
        if m[1] not in classes: continue
        b, _ = block(t, m.end() - 1)
        classes[m[1]]['ops'][m[2]] = body_list(m[2], b)
for name in order:
    c = classes[name]
    print('class', name)
    for n, ty, init in c['members']: print('  member', n, ':', ty, ('{' + init + '}') if init else '')
    print('  size', c['size'] or '-')
    print('  equality', c['eq'])
    for o in OPS: print(' ', o, ' '.join(c['ops'].get(o, ['MISSING'])))
    print('  getters', ' '.join(c['get']))
for preset in ['mainnet', 'minimal']:
    t = strip(open(f'{root}/config/{preset}.hpp.in').read())
    for m in re.finditer(r'constexpr\s+(?:const\s+)?[\w:]+(?:<[^>]*>)?\s+(\w+)\s*(?:=\s*|\{)([^;{}]*?)\}?\s*;', t):
        print('preset', preset, m[1], expr(m[2]))
t = strip(open(f'{root}/config/constants.hpp').read())
for m in re.finditer(r'constexpr\s+(?:const\s+)?[\w:]+(?:<[^>]*>)?\s+(\w+)\s*(?:=\s*|\{)([^;{}]*?)\}?\s*;', t):
    print('constant', m[1], expr(m[2]))
