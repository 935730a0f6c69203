#!/usr/bin/env python3
"""Mutate the definitions of the model mechanically and look for edits no module notices.

usage: automut.py OUT PERDEF SEED FILE...   (files relative to lean/Verif, e.g. Model/Valid.lean)
Each edit is applied in a scratch copy and built until the first module fails.  Edits with which
everything builds are reported as SURVIVED: either they do not change the program, or the
theorems do not say enough about the definition."""
import os, random, re, signal, subprocess, sys
SRC = '/verif/lean'; BASE = '/tmp/auto/base'; SCR = '/tmp/auto/lean'
DEF = re.compile(r'^(?:@\[[^\]]*\]\s*)?(?:private\s+)?(def|abbrev|instance)\b\s*([^\s:({\[]*)')
ANY = re.compile(r'^(?:@\[[^\]]*\]\s*)?(?:private\s+)?(def|abbrev|instance|theorem|inductive|structure|namespace|end|open|section|variable|mutual|/--|/-)')

def bodies(lines):
    i = 0
    while i < len(lines):
        m = DEF.match(lines[i])
        if m:
            j = i + 1
            while j < len(lines) and not ANY.match(lines[j]): j += 1
            yield m.group(2), i, j
            i = j
        else: i += 1

OPS = [
    (re.compile(r'(?<![<=:\-])<(?![<=|>])'), '≤'), (re.compile(r'≤'), '<'), (re.compile(r'(?<![-=|>])>(?![>=])'), '≥'),
    (re.compile(r'≥'), '>'), (re.compile(r'&&'), '||'), (re.compile(r'\|\|'), '&&'), (re.compile(r'∧'), '∨'), (re.compile(r'∨'), '∧'),
    (re.compile(r'\btrue\b'), 'false'), (re.compile(r'\bfalse\b'), 'true'), (re.compile(r'≠'), '='), (re.compile(r'(?<= )== '), '!= '),
    (re.compile(r'!= '), '== '), (re.compile(r'!(?=[a-z(])'), ''),
]
def edits(line, first):
    start = line.index(':=') + 2 if first and ':=' in line else (len(line) if first else 0)
    body = line[start:]
    code = body.split('--')[0]
    for rx, new in OPS:
        for m in rx.finditer(code):
            yield line[:start] + code[:m.start()] + new + code[m.end():]
    for m in re.finditer(r'(?<![\w.\'"])(\d+)(?![\w.\'"])', code):
        if code[:m.start()].count('"') % 2: continue
        yield line[:start] + code[:m.start()] + str(int(m.group(1)) + 1) + code[m.end():]
    for m in re.finditer(r'\bif (?!h :)(.+?) then', code):
        yield line[:start] + code[:m.start()] + 'if ¬ (' + m.group(1) + ') then' + code[m.end():]
    for m in re.finditer(r'"([^"\\]+)"\.toList', code):
        t = m.group(1); yield line[:start] + code[:m.start()] + '"' + t[:-1] + ('Q' if t[-1] != 'Q' else 'R') + '".toList' + code[m.end():]
    for m in re.finditer(r"'([A-Za-z0-9<>=;:/\[\]])'", code):
        c = m.group(1); yield line[:start] + code[:m.start()] + "'" + ('Q' if c != 'Q' else 'R') + "'" + code[m.end():]
    for m in re.finditer(r'\bsome ', code):
        pass

def sh(c): subprocess.run(c, shell=True)
def build():
    p = subprocess.Popen('lake build 2>&1', cwd=SCR, shell=True, stdout=subprocess.PIPE, text=True, start_new_session=True)
    bad = None
    for l in p.stdout:
        m = re.search(r'✖ \[\d+/\d+\] (?:Building|Running) (\S+)', l)
        if m:
            bad = m.group(1); os.killpg(p.pid, signal.SIGKILL); break
    p.wait()
    if bad: return bad
    return None if p.returncode == 0 else 'code %s' % p.returncode

def main():
    out, per, seed, files = sys.argv[1], int(sys.argv[2]), int(sys.argv[3]), sys.argv[4:]
    random.seed(seed); os.makedirs('/tmp/auto', exist_ok=True)
    done = open(out).read() if os.path.exists(out) else ''
    if not os.path.exists(BASE): sh(f'cp -a {SRC} {BASE}')
    todo = []
    for f in files:
        lines = open(f'{BASE}/Verif/{f}').read().split('\n')
        for name, i, j in bodies(lines):
            c = [(k, e) for k in range(i, j) for e in edits(lines[k], k == i) if e != lines[k]]
            random.shuffle(c)
            todo += [(f, name, k, lines[k], e) for k, e in c[:per]]
    print(len(todo), 'edits', flush=True)
    if out == '-': return
    sh(f'rm -rf {SCR}; cp -a {BASE} {SCR}')
    for f, name, k, old, new in todo:
        key = f'{f}:{k+1} {name} | {old.strip()} | {new.strip()}'
        if key in done: continue
        sh(f'rsync -a --delete {BASE}/ {SCR}/ 2>/dev/null || (rm -rf {SCR}; cp -a {BASE} {SCR})')
        p = f'{SCR}/Verif/{f}'; lines = open(p).read().split('\n'); assert lines[k] == old
        lines[k] = new; open(p, 'w').write('\n'.join(lines))
        bad = build()
        with open(out, 'a') as fh: fh.write(('SURVIVED ' if bad is None else f'killed[{bad}] ') + key + '\n')
main()
