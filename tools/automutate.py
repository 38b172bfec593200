#!/usr/bin/env python3
"""Automatic mutants of the model.

Usage: automutate.py list            number of mutants per file
       automutate.py run [SEED] [FILE-PATTERN] [PER_DEFINITION]
       automutate.py retry RESULTS     survivors of an earlier run, on the current model

Simple edits (comparison, connective, sign, component, constant, exception, name) are applied one at
a time to the definitions in lean/Verif/Model in a scratch copy in /tmp/amut.  The build is stopped at
the first error: the mutant is then killed, invalid if the error is in the edited file.  A mutant
that builds is a survivor: either the edit changes nothing observable or a theorem is missing.
Results go to /tmp/amut/results.jsonl; survivors are reported in seeded/LOG.jsonl by hand.
"""
import glob, json, os, random, re, shutil, subprocess, sys
R = '/verif'
W = '/tmp/amut'
BREAK = re.compile(r'^(/--|/-!|section|end|namespace|variable|open|set_option|omit|macro|@\[|attribute|(?:private |protected |noncomputable )*(theorem|lemma|def|abbrev|example|instance|structure|inductive|class)\b)')
DEF = re.compile(r'^(?:@\[[^\]]*\]\s*)?(?:private |protected |noncomputable )*(def|abbrev)\s+(\S+)')
SWAPS = [(' < ', ' ≤ '), (' ≤ ', ' < '), (' = ', ' ≠ '), (' ≠ ', ' = '), (' ∧ ', ' ∨ '), (' ∨ ', ' ∧ '),
         (' + ', ' - '), (' - ', ' + '), (' * ', ' + '), (' / ', ' * '),
         (' && ', ' || '), (' || ', ' && '), (' == ', ' != ')]
WORDS = [('min', 'max'), ('max', 'min'), ('true', 'false'), ('false', 'true'),
         ('inner', 'outer'), ('outer', 'inner'), ('Inner', 'Outer'), ('Outer', 'Inner'),
         ('etaA', 'etaB'), ('etaB', 'etaA'), ('etaC', 'etaD'), ('etaD', 'etaC'),
         ('numC', 'numS'), ('numS', 'numC'), ('keyError', 'valueError'), ('valueError', 'typeError'),
         ('typeError', 'keyError'), ('alpha', 'beta'), ('beta', 'alpha'), ('sin', 'cos'), ('cos', 'sin'),
         ('eta', 'xsi'), ('xsi', 'eta'), ('head?', 'getLast?'), ('getLast?', 'head?'), ('isSome', 'isNone'),
         ('isNone', 'isSome'), ('any', 'all'), ('all', 'any'), ('prev', 'next'), ('lo', 'hi'), ('hi', 'lo'),
         ('defField', 'defFieldMirror'), ('defFieldMirror', 'defField'), ('deflection', 'deflectionMirror'),
         ]

def defs(path):
    lines = open(path).read().split('\n')
    starts = [i for i, l in enumerate(lines) if BREAK.match(l)] + [len(lines)]
    pos, off = [], 0
    for l in lines:
        pos.append(off)
        off += len(l) + 1
    pos.append(off)
    for a, b in zip(starts, starts[1:]):
        m = DEF.match(lines[a])
        if m:
            yield m.group(2).rstrip('('), pos[a], pos[b] - 1

def sites(text, a, b):
    """(start, stop, replacement)"""
    body = text[a:b]
    m = re.search(r':=|\n  \| |\bwhere\b', body)
    if not m:
        return
    s = a + m.end()
    if text[a:b][m.start():m.end()].startswith('\n'):
        s = a + m.start()
    seg = text[s:b]
    for old, new in SWAPS:
        for m in re.finditer(re.escape(old), seg):
            yield s + m.start(), s + m.end(), new
    for old, new in WORDS:
        for m in re.finditer(r'(?<![\w])' + re.escape(old) + r'(?![\w?])', seg):
            yield s + m.start(), s + m.end(), new
    for m in re.finditer(r'(?<=\w)\.(x|y|z|a|b|c|d|p|q|r|s|1|2|fst|snd)\b', seg):
        nxt = {'x': 'y', 'y': 'z', 'z': 'x', 'a': 'b', 'b': 'c', 'c': 'd', 'd': 'a', 'p': 'q', 'q': 'r',
               'r': 's', 's': 'p', '1': '2', '2': '1', 'fst': 'snd', 'snd': 'fst'}[m.group(1)]
        yield s + m.start(), s + m.end(), '.' + nxt
    for m in re.finditer(r'(?<![\w.\'₀-₉"])(\d+)(?![\w."])', seg):
        yield s + m.start(), s + m.end(), str(int(m.group(1)) + 1)
        if m.group(1) != '0':
            yield s + m.start(), s + m.end(), str(int(m.group(1)) - 1)
    for m in re.finditer(r'\bif ([^\n]*?) then', seg):
        if ':' not in m.group(1):
            yield s + m.start(1), s + m.end(1), f'¬ ({m.group(1)})'
    for m in re.finditer(r'"([A-Za-z_]+)"', seg):
        yield s + m.start(1), s + m.end(1), m.group(1) + 'X'
    for m in re.finditer(r'\{ (\w+) with [^{}]*\}', seg):  # dropped update
        yield s + m.start(), s + m.end(), m.group(1)

def mutants(src):
    out = []
    for f in sorted(glob.glob(src + '/lean/Verif/Model/*.lean')):
        text = open(f).read()
        for name, a, b in defs(f):
            for i, (x, y, new) in enumerate(sites(text, a, b)):
                line = text.count('\n', 0, x) + 1
                ls, le = text.rfind('\n', 0, x) + 1, text.find('\n', y)
                out.append({'file': os.path.relpath(f, src + '/lean'), 'definition': name, 'start': x, 'stop': y,
                            'new': new, 'line': line,
                            'edit': f'{text[ls:le].strip()} -> {(text[ls:x] + new + text[y:le]).strip()}'})
    return out

def run(m):
    S = W + '/lean'
    shutil.rmtree(S, ignore_errors=True)
    subprocess.run(['cp', '-a', W + '/pristine', S], check=True)
    p = os.path.join(S, m['file'])
    s = open(p).read()
    open(p, 'w').write(s[:m['start']] + m['new'] + s[m['stop']:])
    mod = m['file'][:-5].replace('/', '.')
    pr = subprocess.Popen(['lake', 'build'], cwd=S, stdout=subprocess.PIPE, stderr=subprocess.STDOUT, text=True,
                          start_new_session=True)
    res = None
    for line in pr.stdout:
        e = re.match(r'error: (Verif/\S+?\.lean):(\d+)', line)
        if e:
            res = ('invalid' if e.group(1) == m['file'] else 'killed', f'{e.group(1)}:{e.group(2)}')
            break
    if res:
        try:
            os.killpg(pr.pid, 9)
        except ProcessLookupError:
            pass
    pr.wait()
    if res is None:
        res = ('survived', '') if pr.returncode == 0 else ('broken', '')
    return res

if __name__ == '__main__':
    if sys.argv[1] == 'list':
        ms = mutants(R)
        by = {}
        for m in ms:
            by.setdefault(m['file'], []).append(m)
        for f, l in by.items():
            print(f, len(l), len({m['definition'] for m in l}))
        sys.exit()
    retry = sys.argv[1] == 'retry'
    rnd = random.Random(int(sys.argv[2]) if len(sys.argv) > 2 and not retry else 0)
    pat = sys.argv[3] if len(sys.argv) > 3 else '.'
    per = int(sys.argv[4]) if len(sys.argv) > 4 else 2
    src = W + '/src'
    if not os.path.exists(W + '/pristine'):
        shutil.rmtree(src, ignore_errors=True)
        os.makedirs(src)
        subprocess.run(f'git -C {R} archive HEAD | tar -x -C {src}', shell=True, check=True)
        shutil.copytree(src + '/lean', W + '/pristine')
        shutil.copytree(R + '/lean/.lake', W + '/pristine/.lake')
        for f in ('lake-manifest.json',):
            if os.path.exists(f'{R}/lean/{f}'):
                shutil.copy2(f'{R}/lean/{f}', W + '/pristine/')
        subprocess.run(['lake', 'build'], cwd=W + '/pristine', check=True, stdout=subprocess.DEVNULL)
    done = set()
    if os.path.exists(W + '/results.jsonl'):
        for l in open(W + '/results.jsonl'):
            r = json.loads(l)
            done.add((r['definition'], r['edit']))
    by = {}
    for m in mutants(src):
        if re.search(pat, m['file']):
            by.setdefault((m['file'], m['definition']), []).append(m)
    order = []
    if retry:
        old = {(r['definition'], r['edit']) for r in map(json.loads, open(sys.argv[2])) if r['result'] == 'survived'}
        order = [m for l in by.values() for m in l if (m['definition'], m['edit']) in old]
        by, per = {}, 0
    for k in by:
        rnd.shuffle(by[k])
    for i in range(per):
        ks = list(by)
        rnd.shuffle(ks)
        order += [by[k][i] for k in ks if i < len(by[k])]
    for m in order:
        if (m['definition'], m['edit']) in done:
            continue
        if os.path.exists(W + '/stop'):
            break
        r = run(m)
        m['result'], m['at'] = r
        with open(W + '/results.jsonl', 'a') as f:
            f.write(json.dumps(m, ensure_ascii=False) + '\n')
        print(r[0], m['file'], m['definition'], m['line'], m['edit'] if r[0] == 'survived' else '', flush=True)
