#!/usr/bin/env python3
"""Checks that every `file:lines` citation in the model lies inside the cited file of /repo."""
import os, re, glob
root = '/repo/src'
files = {}
for d, _, fs in os.walk(root):
    for f in fs:
        if f.endswith(('.py', '.cpp', '.h')):
            p = os.path.join(d, f)
            files.setdefault(f, []).append((p, sum(1 for _ in open(p, errors='replace'))))
bad = 0
for lean in sorted(glob.glob(os.path.join(os.path.dirname(os.path.abspath(__file__)), '../lean/Verif/**/*.lean'), recursive=True)):
    text = open(lean).read()
    for m in re.finditer(r'([\w/]*?)(\w+\.(?:py|cpp|h)):(\d[\d,\s\-]*)', text):
        nums = [int(x) for x in re.findall(r'\d+', m.group(3))]
        name = m.group(2)
        c = [n for p, n in files.get(name, []) if p.endswith(m.group(1) + name)]
        if not c or max(nums) > max(c):
            bad += 1
            print(os.path.basename(lean), m.group(0).strip(), c)
print('bad:', bad)
