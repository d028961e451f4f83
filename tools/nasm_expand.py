#!/usr/bin/env python3
"""Expand the NASM macros of an assembly file as text (nothing is assembled or run).

usage: nasm_expand.py FILE [INCLUDE_ROOT]

Prints one line per item: `data SECTION OFFSET WORD`, `label NAME SECTION OFFSET`, `text INSTRUCTION`.
The Linux branch of every %ifdef is taken (WINABI and LINUX undefined).
"""
import re, sys

class Expander:
    def __init__(self, root):
        self.root = root
        self.defs = {}        # name -> (kind, text); kind: define (lazy) | xdefine / assign (eager)
        self.macros = {}      # (name, nargs) -> lines
        self.out = []
        self.section = None
        self.off = {}
        self.struc = None
        self.nmacro = 0

    # ---- single-line macro substitution
    TOK = re.compile(r'%%?[A-Za-z_0-9]+|\.?[A-Za-z_][A-Za-z_0-9.]*|0x[0-9a-fA-F]+|[01]+b\b|\d+|.')
    def subst(self, text, ctx, depth=0, skip=()):
        if depth > 50: raise Exception('recursion ' + text)
        res = []
        i = 0
        for m in self.TOK.finditer(text):
            t = m.group(0)
            if t.startswith('%%') and ctx is not None:
                t = '..@%d.%s' % (ctx['id'], t[2:])
                if t in self.defs:
                    t = self.subst(self.defs[t], ctx, depth + 1)
            elif re.fullmatch(r'%\d+', t) and ctx is not None:
                t = ctx['args'][int(t[1:]) - 1]
            elif t in self.defs and t not in skip:
                t = self.subst(self.defs[t], ctx, depth + 1, skip + (t,))
            res.append(t)
        return ''.join(res)

    def full(self, text, ctx):
        prev = None
        while prev != text:
            prev = text
            text = self.subst(text, ctx)
        return text

    def ev(self, text):
        t = re.sub(r'\b([01]+)b\b', lambda m: str(int(m.group(1), 2)), text)
        assert re.fullmatch(r'[0-9a-fA-Fx+\-*&() \t]*', t), text
        return eval(t)

    def run(self, lines, ctx=None):
        i = 0
        while i < len(lines):
            line = lines[i]; i += 1
            line = re.sub(r';.*', '', line).rstrip()
            while line.endswith('\\'):
                line = line[:-1] + re.sub(r';.*', '', lines[i]).rstrip(); i += 1
            s = line.strip()
            if not s: continue
            w = s.split(None, 1)
            d = w[0]; rest = w[1] if len(w) > 1 else ''
            if d in ('%ifdef', '%ifndef'):
                depth = 1; a = []; b = []; cur = a
                while True:
                    l = lines[i]; i += 1
                    x = l.strip().split()
                    k = x[0] if x else ''
                    if k in ('%ifdef', '%ifndef'): depth += 1
                    if k == '%endif':
                        depth -= 1
                        if depth == 0: break
                    if k == '%else' and depth == 1: cur = b; continue
                    cur.append(l)
                c = (rest.split()[0] in self.defs) == (d == '%ifdef')
                self.run(a if c else b, ctx); continue
            if d == '%macro':
                name, n = rest.split()[:2]
                body = []
                while lines[i].strip().split()[:1] not in (['%endm'], ['%endmacro']):
                    body.append(lines[i]); i += 1
                i += 1
                self.macros[(name, int(n))] = body; continue
            if d == '%rep':
                n = self.ev(self.full(rest, ctx)); depth = 1; body = []
                while True:
                    l = lines[i]; i += 1
                    k = (l.strip().split() or [''])[0]
                    if k == '%rep': depth += 1
                    if k == '%endrep':
                        depth -= 1
                        if depth == 0: break
                    body.append(l)
                for _ in range(n): self.run(body, ctx)
                continue
            if d in ('%define', '%xdefine', '%assign'):
                p = rest.split(None, 1)
                name = p[0]; val = p[1].strip() if len(p) > 1 else ''
                if name.startswith('%%'): name = '..@%d.%s' % (ctx['id'], name[2:])
                if ctx is not None: val = re.sub(r'%(\d+)', lambda m: ctx['args'][int(m.group(1)) - 1], val)
                if d == '%xdefine': val = self.full(val, ctx)
                if d == '%assign': val = str(self.ev(self.full(val, ctx)))
                self.defs[name] = val; continue
            if d == '%include':
                self.run(open(self.root + '/' + rest.strip().strip('"')).read().split('\n'), ctx); continue
            if d.startswith('%') and not d.startswith('%%'): raise Exception(s)
            if d == 'struc': self.struc = [rest.strip(), 0]; continue
            if d == 'endstruc':
                self.defs[self.struc[0] + '_size'] = str(self.struc[1]); self.struc = None; continue
            if self.struc is not None:
                m = re.match(r'(?:([A-Za-z_.]+)(?::|\s)(?<!resb\s))?\s*(?:(resb)\s+(.*))?$', s)
                if m.group(1):
                    n = m.group(1)
                    if n.startswith('.'): n = self.struc[0] + n
                    self.defs[n] = str(self.struc[1])
                if m.group(2): self.struc[1] += self.ev(self.full(m.group(3), ctx))
                continue
            if d in ('global', 'extern', 'default', 'align', 'bits'):
                if d == 'align' and self.section == 'data': pass
                continue
            if d == 'section':
                self.section = rest.split()[0]; self.off.setdefault(self.section, 0); continue
            m = re.match(r'([.A-Za-z_][A-Za-z_0-9.]*):\s*(.*)$', s)
            if m:
                if self.section == '.text': self.out.append('text label ' + m.group(1))
                else: self.out.append('label %s %s %d' % (m.group(1), self.section, self.off[self.section]))
                s = m.group(2)
                if not s: continue
                d = s.split(None, 1)[0]; rest = s.split(None, 1)[1] if ' ' in s or '\t' in s else ''
            if d in ('dd', 'dq', 'ddq'):
                size = {'dd': 4, 'dq': 8, 'ddq': 16}[d]
                for t in rest.split(','):
                    if not t.strip(): continue
                    v = int(t.strip(), 16)
                    for k in range(size // 4):
                        self.out.append('data %s %d %08x' % (self.section, self.off[self.section], (v >> (32 * k)) & 0xffffffff))
                        self.off[self.section] += 4
                continue
            # macro call or instruction
            args = self.split(rest)
            if (d in self.defs): d = self.full(d, ctx)
            if (d, len(args)) in self.macros:
                self.nmacro += 1
                a = [self.full(x, ctx).strip() for x in args]
                self.run(self.macros[(d, len(args))], {'id': self.nmacro, 'args': a}); continue
            self.out.append('text ' + self.norm(d, [self.full(x, ctx).strip() for x in args]))

    def split(self, rest):
        r = []; depth = 0; cur = ''
        for c in rest:
            if c in '([': depth += 1
            if c in ')]': depth -= 1
            if c == ',' and depth == 0: r.append(cur); cur = ''
            else: cur += c
        if cur.strip(): r.append(cur)
        return [x.strip() for x in r]

    GPR32 = dict(eax='rax', ebx='rbx', ecx='rcx', edx='rdx', esi='rsi', edi='rdi', ebp='rbp', esp='rsp')
    def norm(self, d, args):
        out = []
        for a in args:
            m = re.fullmatch(r'XWORD\((.*)\)', a)
            if m: a = 'xmm' + m.group(1)[3:]
            m = re.fullmatch(r'\[(.*)\]', a)
            if m:
                inner = m.group(1).replace('wrt rip', '').replace('rel ', 'rel:').strip()
                regs = []; num = []
                depth = 0; cur = ''; parts = []
                for c in inner:
                    if c == '(': depth += 1
                    if c == ')': depth -= 1
                    if c == '+' and depth == 0: parts.append(cur); cur = ''
                    else: cur += c
                parts.append(cur)
                for p in parts:
                    p = p.strip()
                    if re.fullmatch(r'[0-9a-fA-Fx+\-*&() \t]*', p) and re.match(r'[0-9(]', p): num.append(self.ev(p))
                    else: regs.append(p.replace('rel:', ''))
                out.append('[' + '+'.join(regs + [str(sum(num))]) + ']')
            elif re.fullmatch(r'[0-9a-fA-Fxb+\-*&() \t]*', a) and re.match(r'[0-9(]', a):
                out.append(str(self.ev(a)))
            else: out.append(a)
        return d + ' ' + ','.join(out)

def main():
    f = sys.argv[1]; root = sys.argv[2] if len(sys.argv) > 2 else '/repo'
    e = Expander(root)
    e.defs['XWORD'] = 'XWORD'
    del e.defs['XWORD']
    e.run(open(f).read().split('\n'))
    print('\n'.join(e.out))

if __name__ == '__main__': main()
