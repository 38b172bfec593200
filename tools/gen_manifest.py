#!/usr/bin/env python3
"""Writes MANIFEST.json and lean/Verif/Audit.lean from the table below.

Each line of tools/manifest.txt:  ID | status | theorem, theorem, ... | note
"""
import json, os
here = os.path.dirname(os.path.abspath(__file__))
claims = []
for line in open(os.path.join(here, 'manifest.txt')):
    line = line.rstrip('\n')
    if not line.strip() or line.startswith('#'):
        continue
    pid, status, thms, note = [x.strip() for x in line.split('|', 3)]
    assert status in ('proved', 'partial', 'not_applicable'), line
    names = ['Verif.' + t.strip() for t in thms.split(',') if t.strip()]
    claims.append({'property': pid, 'status': status, 'theorems': names, 'note': note})
ids = [json.loads(l)['id'] for l in open(os.path.join(here, '..', 'properties.jsonl'))]
claims.sort(key=lambda c: int(c['property'][1:]))
for c in claims:
    assert c['property'] in ids, c
missing = [i for i in ids if i not in {c['property'] for c in claims}]
print('properties without entry:', ' '.join(missing))
with open(os.path.join(here, '..', 'MANIFEST.json'), 'w') as f:
    f.write('{"claims": [\n' + ',\n'.join(json.dumps(c, ensure_ascii=False) for c in claims) + '\n]}\n')
allt = [t for c in claims for t in c['theorems']]
assert len(allt) == len(set(allt)), 'duplicate theorem'
mods = sorted('Verif.Props.' + p[:-5] for p in os.listdir(os.path.join(here, '../lean/Verif/Props')) if p.endswith('.lean'))
with open(os.path.join(here, '../lean/Verif/Audit.lean'), 'w') as f:
    f.write('import Lean.Util.CollectAxioms\nimport Lean.Elab.Command\n')
    for m in mods:
        f.write(f'import {m}\n')
    f.write('''
/-! Generated by `tools/gen_manifest.py`.  Fails the build if a theorem named in `MANIFEST.json`
does not exist or depends on an axiom other than the three standard ones. -/

open Lean Elab Command in
/-- `audit a b c`: check the axioms of the named theorems. -/
elab "audit " ns:ident* : command => do
  for n in ns do
    let c ← liftCoreM <| realizeGlobalConstNoOverload n
    unless ((← getEnv).find? c matches some (.thmInfo _)) do
      throwErrorAt n "{c} is not a theorem"
    for a in (← liftCoreM <| collectAxioms c) do
      unless a == ``propext || a == ``Classical.choice || a == ``Quot.sound do
        throwErrorAt n "{c} depends on axiom {a}"

''')
    for c in claims:
        if c['theorems']:
            f.write('audit ' + ' '.join(c['theorems']) + '\n')
with open(os.path.join(here, '../lean/Verif.lean'), 'w') as f:
    root = os.path.join(here, '../lean/Verif')
    for d in ('Model', 'Lemmas', 'Props'):
        for p in sorted(os.listdir(os.path.join(root, d))):
            if p.endswith('.lean'):
                f.write(f'import Verif.{d}.{p[:-5]}\n')
    f.write('import Verif.Audit\n')
rows = ['| Property | Status | Theorems | Note |', '|---|---|---|---|']
titles = {json.loads(l)['id']: json.loads(l)['title'] for l in open(os.path.join(here, '..', 'properties.jsonl'))}
for c in claims:
    ts = ', '.join('`' + t.split('.', 1)[1] + '`' for t in c['theorems'])
    rows.append(f"| {c['property']} {titles[c['property']]} | {c['status']} | {ts} | {c['note']} |")
for i in missing:
    rows.append(f'| {i} {titles[i]} | open | | |')
design = os.path.join(here, '..', 'DESIGN.md')
text = open(design).read()
a, b = text.index('<!-- status begin -->\n'), text.index('<!-- status end -->')
open(design, 'w').write(text[:a] + '<!-- status begin -->\n' + '\n'.join(rows) + '\n' + text[b:])
print(len(claims), 'claims', len(allt), 'theorems')
