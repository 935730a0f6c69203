#!/usr/bin/env python3
"""Generate lean/Verif/Gen/Status.lean from statusMeanings in /repo/common.go."""
import re, os
OUT = os.path.join(os.path.dirname(os.path.abspath(__file__)), '..', 'lean', 'Verif', 'Gen')
s = open('/repo/common.go').read()
i = s.index('var statusMeanings = map[Int][3]string{\n')
j = s.index('\n}\n', i)
a = s.count('\n', 0, i) + 1
b = s.count('\n', 0, j) + 2
rows = []
for line in s[i:j].split('\n')[1:]:
    m = re.match(r'^\t(\d+):\s*\{"((?:[^"\\]|\\.)*)", "((?:[^"\\]|\\.)*)", "((?:[^"\\]|\\.)*)"\},$', line)
    assert m, line
    assert '\\' not in line
    rows.append(m.groups())
P = [f'''import Verif.Go.Str
/-
GENERATED by tools/gen_status.py from common.go {a}-{b} -- do not edit.
-/
namespace Ofx

/-- common.go {a}-{b} `statusMeanings`: code, meaning, severity, conditions. -/
def statusMeanings : List (Int × String × Str × String) := [''']
for k, (c, m, sv, co) in enumerate(rows):
    P.append(f'  ({c}, "{m}", "{sv}".toList, "{co}")' + (',' if k + 1 < len(rows) else ']'))
P.append('\nend Ofx')
open(os.path.join(OUT, 'Status.lean'), 'w').write('\n'.join(P) + '\n')
print(len(rows), 'status codes')
