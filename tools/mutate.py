#!/usr/bin/env python3
"""Seed bugs into a scratch copy of the model and see which theorems notice.

usage: mutate.py BATCHFILE   (a Python file defining MUTATIONS: list of dicts with
file, old, new, definition, edit, claim)
Results are appended to /verif/seeded/LOG.jsonl (theorems_tightened is filled in by hand)."""
import json, os, re, subprocess, sys
SRC = '/verif/lean'; BASE = '/tmp/scratch/base'; SCR = '/tmp/scratch/lean'; LOG = '/verif/seeded/LOG.jsonl'
DECL = re.compile(r'^(?:@\[[^\]]*\]\s*)?(?:private\s+|protected\s+)?(theorem|def|example|instance|abbrev|inductive|structure|lemma)\b\s*([^\s:({\[]*)')

def decls(path):
    out = []
    lines = open(path).read().split('\n')
    for i, l in enumerate(lines):
        m = DECL.match(l)
        if m:
            out.append((i + 1, m.group(1), m.group(2) or m.group(1)))
    return lines, out

def enclosing(path, line):
    lines, ds = decls(path)
    best = None
    for ln, kind, name in ds:
        if ln <= line:
            best = (kind, name)
            if name == 'instance':  # anonymous: named by its class
                m = re.search(r'instance\s*:\s*(\w+)', lines[ln - 1])
                best = (kind, 'instance ' + m.group(1)) if m else best
    return best

def dep_map():
    bodies = {}
    for root, _, fs in os.walk(SCR + '/Verif'):
        for f in fs:
            if not f.endswith('.lean') or '/Gen' in root: continue
            p = os.path.join(root, f)
            lines, ds = decls(p)
            for k, (ln, kind, name) in enumerate(ds):
                end = ds[k + 1][0] - 1 if k + 1 < len(ds) else len(lines)
                if kind in ('theorem', 'lemma') :
                    bodies[name] = (p, '\n'.join(lines[ln - 1:end]))
    toks = {n: set(re.findall(r"[A-Za-z_][\w'.]*", b)) for n, (p, b) in bodies.items()}
    short = {}
    for n in bodies: short.setdefault(n.split('.')[-1], set()).add(n)
    deps = {}
    for n, ts in toks.items():
        d = set()
        for t in ts:
            for piece in (t, t.split('.')[-1]):
                d |= short.get(piece, set())
        d.discard(n); deps[n] = d
    return bodies, deps

def run(cmd, cwd):
    return subprocess.run(cmd, cwd=cwd, shell=True, capture_output=True, text=True)

def targets(claim):
    ids = re.findall(r'C\d\d+', claim); out = []
    for f in sorted(os.listdir(SRC + '/Verif/Props')):
        t = open(f'{SRC}/Verif/Props/{f}').read()
        if any(f'theorem {i}_' in t for i in ids): out.append('Verif.Props.' + f[:-5])
    return out

def main():
    ns = {}; exec(open(sys.argv[1]).read(), ns)
    os.makedirs('/tmp/scratch', exist_ok=True); os.makedirs('/verif/seeded', exist_ok=True)
    run(f'rm -rf {BASE}; cp -a {SRC} {BASE}', '/')  # with its compiled files, so that only what depends on an edit is rebuilt
    done = {(r['definition'], r['edit']) for r in map(json.loads, open(LOG))} if os.path.exists(LOG) else set()
    for m in ns['MUTATIONS']:
        if (m['definition'], m['edit']) in done: continue  # so that a batch may be resumed
        run(f'rm -rf {SCR}; cp -a {BASE} {SCR}', '/')
        p = f"{SCR}/Verif/{m['file']}"
        orig = open(p).read()
        if orig.count(m['old']) < 1:
            print('NOT FOUND', m['definition'], m['edit']); continue
        if orig.count(m['old']) > 1 and not m.get('all'):
            print('AMBIGUOUS', orig.count(m['old']), m['definition'], m['edit']); continue
        open(p, 'w').write(orig.replace(m['old'], m['new']))
        first = targets(m['claim'])  # the modules with the theorems of the claim; all others only if these still build
        r = run('lake build %s 2>&1' % ' '.join(first), SCR)
        if r.returncode == 0 and first: r = run('lake build 2>&1', SCR)
        errs = re.findall(r'^error: (Verif/\S+\.lean):(\d+):', r.stdout, re.M)
        failed = []
        if r.returncode and not errs:  # killed
            print('NO RESULT', m['definition'], m['edit'], r.stdout[-300:], flush=True)
            continue
        for f, l in errs:
            e = enclosing(f'{SCR}/{f}', int(l))
            s = f"{f[6:-5]}: {e[1]}" if e else f
            if s not in failed: failed.append(s)
        names = {s.split(': ')[1] for s in failed if ': ' in s}
        bodies, deps = dep_map()
        hit = set(n for n in names if n in deps)
        for n in names:
            if n.startswith('instance '):
                c = n.split()[1]
                hit |= {k for k, (_, b) in bodies.items() if re.search(r'\b%s\b' % c, b)}
        changed = True
        while changed:
            changed = False
            for n, d in deps.items():
                if n not in hit and d & hit: hit.add(n); changed = True
        props = sorted(n for n in hit if re.match(r'C\d\d+_', n))
        rec = dict(definition=m['definition'], edit=m['edit'], claim_broken=m['claim'],
                   first_failures=failed, theorems_failed=props, theorems_tightened=m.get('tightened', []))
        with open(LOG, 'a') as fh: fh.write(json.dumps(rec, ensure_ascii=False) + '\n')
        print(('SURVIVED ' if not failed else 'killed   ') + m['definition'] + ' | ' + m['edit'] + ' | ' + '; '.join(failed[:4]) + ' | ' + ' '.join(props[:6]), flush=True)
main()
