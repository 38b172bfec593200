#!/usr/bin/env python3
"""Mutation tests of the theorems.

Usage: mutate.py FILE.jsonl [NAME ...] [--dry | --check] [--quick]

Each line of the file: {"name", "file" (under lean/), "definition", "old", "new", "claim",
"expect": [theorems that should fail]}.  Each edit is applied in a scratch copy in /tmp/mut.  A
helper lemma that fails there is replaced by `sorry` so that the files after it still build; a
theorem counts as failed if its own proof fails or if it then depends on `sorryAx`.  The result is
appended to seeded/LOG.jsonl (unless --dry).  With --quick only the files of the theorems in "expect"
and those that they import are built; if one of these theorems is still proved, everything is.
"""
import fcntl, json, os, re, subprocess, sys, shutil
R = '/verif'
V = '/tmp/mut/src'  # the last commit
S = '/tmp/mut/lean'
HEAD = re.compile(r'^(?:@\[[^\]]*\]\s*)?(?:private |protected |noncomputable )*(theorem|lemma|def|abbrev|example|instance|structure|inductive|class)\b\s*(\S*)')
BREAK = re.compile(r'^(/--|/-!|section|end|namespace|variable|open|set_option|omit|audit|macro|@\[|attribute|(?:private |protected |noncomputable )*(theorem|lemma|def|abbrev|example|instance|structure|inductive|class)\b)')

def blocks(lines):
    """(start, stop, kind, name) of the declarations"""
    starts = [i for i, l in enumerate(lines) if BREAK.match(l)] + [len(lines)]
    out = []
    for a, b in zip(starts, starts[1:]):
        m = HEAD.match(lines[a])
        if m:
            out.append((a, b, m.group(1), m.group(2)))
    return out

def build(target=None):
    r = subprocess.run(['lake', 'build'] + ([target] if target else []), cwd=S, capture_output=True, text=True)
    errs = re.findall(r'^error: (Verif/\S+?\.lean):(\d+):\d+', r.stdout + r.stderr, re.M)
    return r.returncode, [(f, int(n)) for f, n in errs], r.stdout + r.stderr

def audit_names():
    return [t for c in json.load(open(V + '/MANIFEST.json'))['claims'] for t in c['theorems']]

def proof_start(body):
    """position of the first `:=` or equation outside of brackets"""
    depth = 0
    for i, c in enumerate(body):
        if c in '([{⟨':
            depth += 1
        elif c in ')]}⟩':
            depth -= 1
        elif depth == 0:
            if body.startswith('\n  | ', i):
                return i
            if body.startswith(':=', i) and ' let ' not in body[body.rfind('\n', 0, i):i]:
                return i
    raise ValueError(body)

def sorry_out(f, lineno):
    """neutralise the declaration around the line; returns (kind, name)"""
    p = os.path.join(S, f)
    lines = open(p).read().split('\n')
    for a, b, kind, name in blocks(lines):
        if a <= lineno - 1 < b:
            body = '\n'.join(lines[a:b])
            if kind == 'example':
                new = 'example : True := trivial'
            elif kind in ('theorem', 'lemma'):
                new = body[:proof_start(body)] + ':= by sorry'
            else:
                return kind, name, False
            if new.strip() == body.strip():
                return kind, name if kind != 'example' else a, False
            n_old = b - a
            newl = new.split('\n')
            newl += [''] * (n_old - len(newl))
            lines[a:b] = newl
            open(p, 'w').write('\n'.join(lines))
            return kind, name if kind != 'example' else a, True
    return None, f'{f}:{lineno}', False

def sync():
    """copy the sources that differ"""
    for d in ('', 'Verif', 'Verif/Model', 'Verif/Lemmas', 'Verif/Props'):
        os.makedirs(os.path.join(S, d), exist_ok=True)
        src = {f for f in os.listdir(os.path.join(V, 'lean', d)) if os.path.isfile(os.path.join(V, 'lean', d, f))}
        for f in os.listdir(os.path.join(S, d)):
            if f.endswith('.lean') and f not in src:
                os.remove(os.path.join(S, d, f))
        for f in src:
            a, b = os.path.join(V, 'lean', d, f), os.path.join(S, d, f)
            if not os.path.exists(b) or open(a, 'rb').read() != open(b, 'rb').read():
                shutil.copy2(a, b)

def modules_of(names):
    """import lines of the files with the theorems"""
    out = []
    for d in ('Props', 'Lemmas'):
        for f in sorted(os.listdir(f'{V}/lean/Verif/{d}')):
            text = open(f'{V}/lean/Verif/{d}/{f}').read()
            if any(re.search(rf'^theorem {re.escape(n)}\b', text, re.M) for n in names):
                out.append(f'import Verif.{d}.{f[:-5]}\n')
    return out

def run(m, quick=False):
    sync()
    # audit file: report instead of fail
    p = os.path.join(S, m['file'])
    s = open(p).read()
    edits = m['edits'] if 'edits' in m else [[m['old'], m['new']]]
    for old, new in edits:
        assert s.count(old) >= 1, ('not found', m['name'], old)
        assert s.count(old) == 1 or m.get('all'), ('ambiguous', m['name'], old)
        s = s.replace(old, new)
    open(p, 'w').write(s)
    names = audit_names()
    mods = [l for l in open(S + '/Verif/Audit.lean') if l.startswith('import')]
    if quick:
        mods = modules_of(m['expect']) + ['import Lean.Util.CollectAxioms\n', 'import Lean.Elab.Command\n']
    with open(S + '/Verif/Audit.lean', 'w') as f:
        f.write(''.join(mods) + '''
open Lean Elab Command in
elab "audit " ns:ident* : command => do
  for n in ns do
    let c := n.getId
    if (← getEnv).contains c then
      if (← liftCoreM <| collectAxioms c).contains ``sorryAx then logInfo m!"FAILED {c}"
''')
        f.write('audit ' + ' '.join(names) + '\n')
    direct = []
    for _ in range(30):
        rc, errs, out = build('Verif.Audit' if quick else None)
        if rc == 0:
            break
        if not errs:
            return {'broken': out[-1500:]}
        done = set()
        for f, n in errs:
            kind, name, ok = sorry_out(f, n)
            key = (f, name)
            if not ok:
                if key in done:
                    continue
                return {'broken': f'{f}:{n} {kind} {name}\n' + out[-1500:]}
            done.add(key)
            direct.append(name if kind in ('theorem', 'lemma') else f'example {f}:{n}')
    failed = re.findall(r'FAILED (\S+)', out)
    return {'failed': sorted(set(failed)), 'direct': direct}

if __name__ == '__main__':
    args = [a for a in sys.argv[1:] if not a.startswith('--')]
    muts = [json.loads(l) for l in open(args[0]) if l.strip()]
    if len(args) > 1:
        muts = [m for m in muts if m['name'] in args[1:]]
    if '--check' in sys.argv:  # only look for the texts to be replaced
        for m in muts:
            s = open(os.path.join(R, 'lean', m['file'])).read()
            for old, new in m['edits'] if 'edits' in m else [[m['old'], m['new']]]:
                if s.count(old) != 1 and not (m.get('all') and s.count(old)):
                    print(m['name'], s.count(old))
        sys.exit()
    os.makedirs(S, exist_ok=True)
    lock = open('/tmp/mut/lock', 'w')
    fcntl.flock(lock, fcntl.LOCK_EX)
    if not os.path.exists(S + '/.lake'):
        shutil.copytree(R + '/lean/.lake', S + '/.lake')
    shutil.rmtree(V, ignore_errors=True)
    os.makedirs(V)
    subprocess.run(f'git -C {R} archive HEAD | tar -x -C {V}', shell=True, check=True)
    for m in muts:
        quick = '--quick' in sys.argv and bool(m.get('expect'))
        r = run(m, quick)
        if quick and ('broken' in r or any('Verif.' + e not in r['failed'] for e in m['expect'])):
            quick = False
            r = run(m)
        if 'broken' in r:
            print(m['name'], 'BROKEN', r['broken'], flush=True)
            continue
        exp = ['Verif.' + e for e in m.get('expect', [])]
        miss = [e for e in exp if e not in r['failed']]
        helpers = [d for d in r['direct'] if 'Verif.' + d not in r['failed']]
        print(m['name'], 'failed:', ' '.join(x.replace('Verif.', '') for x in r['failed']) or '-', '| direct:', ' '.join(helpers) or '-', flush=True)
        if not r['failed']:
            print('   *** SURVIVED', flush=True)
        if miss:
            print('   *** EXPECTED BUT STILL PROVED:', ' '.join(miss), flush=True)
        if '--dry' not in sys.argv:
            with open(R + '/seeded/LOG.jsonl', 'a') as f:
                f.write(json.dumps({'name': m['name'], 'definition': m['definition'],
                    'edit': m.get('edit') or '; '.join(f'{o.strip()} -> {n.strip()}' for o, n in (m['edits'] if 'edits' in m else [[m['old'], m['new']]])),
                    'claim': m['claim'], 'failed': [x.replace('Verif.', '') for x in r['failed']],
                    'helpers_failed': helpers, 'tightened': m.get('tightened', []), **({'built': 'only the files of the expected theorems'} if quick else {})}, ensure_ascii=False) + '\n')
