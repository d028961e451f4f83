#!/usr/bin/env python3
"""Compares the text of the files in lean/Verif/Model/AsmText.lean, CppText.lean and CppTextMore.lean with the files of the repository.

usage: compare_text.py [/repo]
"""
import os, re, sys

repo = sys.argv[1] if len(sys.argv) > 1 else '/repo'
here = os.path.dirname(os.path.abspath(__file__))
text = ''.join(open(os.path.join(here, '../lean/Verif/Model', f)).read() for f in ['AsmText.lean', 'CppText.lean', 'CppTextMore.lean'])
escapes = {'\\\\': '\\', '\\"': '"', '\\t': '\t'}
bad = 0
for path, body in re.findall(r'/-- The lines of (\S+?):[0-9-]+\. -/\ndef \w+ : List String := \[\n(.*?)\]\n\n', text, re.S):
    lines = [re.sub(r'\\.', lambda m: escapes[m.group()], l) for l in re.findall(r'^"((?:[^"\\]|\\.)*)",?$', body, re.M)]
    source = open(os.path.join(repo, path)).read()
    same = source == ''.join(l + '\n' for l in lines) or source == '\n'.join(lines)
    print(path, len(lines), 'lines', 'same' if same else 'DIFFERENT')
    bad += not same
sys.exit(bad > 0)
