#!/usr/bin/env python3
"""Generate lean/Verif/Gen/Accessors.lean from the methods of the four interfaces
(InvTransaction, Position, OpenOrder, Security) in /repo."""
import re, os
R = '/repo/'
OUT = os.path.join(os.path.dirname(os.path.abspath(__file__)), '..', 'lean', 'Verif', 'Gen', 'Accessors.lean')
structs = open(os.path.join(os.path.dirname(OUT), 'Structs.lean')).read()
def ctors(iface):
    m = re.search(r'^inductive %s where\n((?:  \| .*\n)+)' % iface, structs, re.M)
    return [(c, t) for c, t in re.findall(r'\| (\w+) \(v : Ofx\.(\w+)\)', m.group(1))]
def method(f, ty, name, ret):
    s = open(R + f).read()
    m = re.search(r'func \((\w+) %s\) %s\(\) %s \{\n\treturn ([^\n]+)\n\}' % (ty, name, ret), s)
    assert m, (ty, name)
    return m.group(1), m.group(2), s.count('\n', 0, m.start()) + 1
out = ['import Verif.Gen.Structs', '/-', 'Generated by tools/gen_access.py from /repo: the methods of the interfaces for', 'transactions, positions, open orders and securities.', '-/', 'namespace Ofx', '']
for iface, f, kind, part in [('InvTransaction', 'invstmt.go', 'TransactionType', ('InvTransaction', 'InvTran')),
                       ('Position', 'invstmt.go', 'PositionType', ('InvPosition', 'InvPosition')),
                       ('OpenOrder', 'invstmt.go', 'OrderType', None),
                       ('Security', 'seclist.go', 'SecurityType', ('SecurityInfo', 'SecInfo'))]:
    cs = ctors(iface)
    rows, lines = [], []
    for c, t in cs:
        r, e, ln = method(f, t, kind, 'string')
        assert re.fullmatch(r'"\w+"', e)
        rows.append(f'  | .{c} _ => {e}.toList'); lines.append(f'{ln}-{ln+2}')
    out += [f'/-- The methods `{kind}`: {f} ' + ', '.join(lines) + '. -/', f'def {iface}.{kind} : {iface} → Str'] + rows + ['']
    if part:
        rows, lines = [], []
        for c, t in cs:
            r, e, ln = method(f, t, part[0], part[1])
            assert e.startswith(r + '.')
            rows.append(f'  | .{c} v => v{e[len(r):]}'); lines.append(f'{ln}-{ln+2}')
        out += [f'/-- The methods `{part[0]}`: {f} ' + ', '.join(lines) + '. -/', f'def {iface}.{part[0]} : {iface} → Ofx.{part[1]}'] + rows + ['']
out += ['end Ofx', '']
open(OUT, 'w').write('\n'.join(out))
