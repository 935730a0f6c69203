#!/usr/bin/env python3
"""Generate lean/Verif/Gen/Structs.lean and lean/Verif/Gen/Schema.lean from the struct
declarations, the list types (their UnmarshalXML/MarshalXML bodies are checked against
a template) and the type-name methods in /repo."""
import re, os
R = '/repo/'
OUT = os.path.join(os.path.dirname(os.path.abspath(__file__)), '..', 'lean', 'Verif', 'Gen')
FILES = ['common.go', 'bank.go', 'creditcard.go', 'signon.go', 'signup.go', 'profile.go', 'seclist.go', 'invstmt.go']
src = {f: open(R + f).read() for f in FILES}
enums = {}
for m in re.finditer(r'def enum(\w+) : EnumTable where\n  goType := "(\w+)"', open(os.path.join(OUT, 'Enums.lean')).read()):
    enums[m.group(2)] = 'enum' + m.group(1)
LEAF = {'String': ('Str', '.str'), 'UID': ('Str', '.uid'), 'Int': ('Int', '.int'), 'Boolean': ('Bool', '.bool'),
        'Amount': ('Rat', '.amount'), 'Date': ('GoTime', '.date'), 'CurrSymbol': ('CurrSymbol', '.curr'),
        'string': ('Str', '.goStr')}
for g, e in enums.items():
    LEAF[g] = ('Nat', f'(.enum {e})')
structs = {}
for f in FILES:
    s = src[f]
    for m in re.finditer(r'^type (\w+) struct \{\n(.*?)^\}', s, re.M | re.S):
        a = s.count('\n', 0, m.start()) + 1
        b = s.count('\n', 0, m.end()) + 1
        fields = []
        for line in m.group(2).split('\n'):
            line = line.strip()
            if not line or line.startswith('//'):
                continue
            q = re.match(r'^(\w+)\s+([\*\[\]\w\.]+)\s*(`xml:"([^"]*)"`)?\s*(//.*)?$', line)
            assert q, (m.group(1), line)
            fields.append((q.group(1), q.group(2), q.group(4)))
        structs[m.group(1)] = dict(file=f, a=a, b=b, fields=fields)
# type-name methods
tname = {}
for f in FILES:
    for m in re.finditer(r'func \(\w+ (\w+)\) (?:TransactionType|SecurityType|PositionType|OrderType)\(\) string \{\n\treturn "(\w+)"\n\}', src[f]):
        tname[m.group(1)] = m.group(2)
def body(f, head):
    s = src[f]
    i = s.index(head)
    j = s.index('\n}\n', i)
    return s[i:j + 3], s.count('\n', 0, i) + 1, s.count('\n', 0, j) + 2
# list types: (go type, file, receiver, element literal, interface, variable names)
IFACE = {}   # interface -> list of (decName, type)
LISTS = {}
def closed_type(go, f, iface, lit, target, var, slicetype):
    um, ua, ub = body(f, f'func ({target[0]} *{go}) UnmarshalXML')
    cases = re.findall(r'\t\t\tcase "(\w+)":\n\t\t\t\tvar (\w+) (\w+)\n\t\t\t\tif err := d\.DecodeElement\(&(\w+), &startElement\); err != nil \{\n\t\t\t\t\treturn err\n\t\t\t\t\}\n\t\t\t\t([^\n]*)\n', um)
    alts, dates, banks = [], [], []
    recv = target[0]
    for nm, v, ty, v2, asg in cases:
        assert v == v2
        if ty == 'Date':
            fld = {'DTSTART': 'DtStart', 'DTEND': 'DtEnd'}[nm]
            assert asg == f'{recv}.{fld} = {v}', asg
            dates.append((fld, nm))
        elif ty == 'InvBankTransaction':
            assert asg == f'l.BankTransactions = append(l.BankTransactions, {v})'
            banks.append(nm)
        else:
            tgt = f'*{recv}' if slicetype else f'{recv}.{target[1]}'
            assert asg == f'{tgt} = append({tgt}, {iface}({v}))', asg
            alts.append((nm, ty))
    ncase = um.count('\t\t\tcase "')
    assert ncase == len(cases), (go, ncase, len(cases))
    skel = re.sub(r'\t\t\tcase "(\w+)":\n(?:\t\t\t\t.*\n)*', '', um)
    want = f'''func ({recv} *{go}) UnmarshalXML(d *xml.Decoder, start xml.StartElement) error {{
	for {{
		tok, err := nextNonWhitespaceToken(d)
		if err != nil {{
			return err
		}} else if end, ok := tok.(xml.EndElement); ok && end.Name.Local == start.Name.Local {{
			// If we found the end of our starting element, we're done parsing
			return nil
		}} else if startElement, ok := tok.(xml.StartElement); ok {{
			switch startElement.Name.Local {{
			default:
				return errors.New("Invalid {{X}} child tag: " + startElement.Name.Local)
			}}
		}} else {{
			return errors.New("Didn't find an opening element")
		}}
	}}
}}
'''
    skel = re.sub(r'Invalid \w+ child tag', 'Invalid {X} child tag', skel)
    assert skel == want, (go, skel)
    star = '' if slicetype else '*'
    ma, aa, ab = body(f, f'func ({recv} {star}{go}) MarshalXML')
    mcases = re.findall(r'\t\tcase (\w+):\n\t\t\tif err := e\.EncodeElement\(&(\w+), start\); err != nil \{\n\t\t\t\treturn err\n\t\t\t\}\n', ma)
    assert [c[0] for c in mcases] == [t for _, t in alts], (go, mcases, alts)
    assert ma.count('\t\tcase ') == len(mcases)
    IFACE[iface] = alts
    LISTS[go] = dict(file=f, lit=lit, iface=iface, um=(ua, ub), ma=(aa, ab), dates=dates, banks=banks, slicetype=slicetype)
    assert f'Local: "{lit}"' in ma
closed_type('InvTranList', 'invstmt.go', 'InvTransaction', 'INVTRANLIST', ('l', 'InvTransactions'), 'tran', False)
closed_type('PositionList', 'invstmt.go', 'Position', 'INVPOSLIST', ('p', None), 'position', True)
closed_type('OOList', 'invstmt.go', 'OpenOrder', 'INVOOLIST', ('o', None), 'oo', True)
closed_type('SecurityList', 'seclist.go', 'Security', 'SECLIST', ('r', 'Securities'), 'info', False)

order, seen = [], set()
def base(t):
    return t.replace('*', '').replace('[]', '')
def visit(n):
    if n in seen or n in LEAF or n == 'xml.Name':
        return
    seen.add(n)
    if n in LISTS and LISTS[n]['slicetype']:
        visit(LISTS[n]['iface']); order.append(n); return
    if n in IFACE:
        for _, t in IFACE[n]:
            visit(t)
        order.append(n); return
    if n == 'MessageSetList':
        visit('MessageSet'); order.append(n); return
    for _, t, _ in structs[n]['fields']:
        visit(base(t))
    order.append(n)
for n in structs:
    visit(n)
for n in structs:
    assert n in order, n

def leanty(t):
    if t.startswith('*'):
        return f'Option {paren(leanty(t[1:]))}'
    if t.startswith('[]'):
        return f'List {paren(leanty(t[2:]))}'
    if t in LEAF:
        return LEAF[t][0]
    return 'Ofx.' + t
def paren(s):
    return f'({s})' if ' ' in s else s
S = ['''import Verif.Codec.Schema
/-
GENERATED by tools/gen_structs.py from the struct declarations of /repo -- do not edit.

Go structs as Lean structures, fields under their Go names: pointers are `Option`,
slices are `List`, interface types are sums of the concrete types that the
hand-written MarshalXML methods accept.  XMLName fields with a tag are dropped: they
are set by decoding and never read (encoding/xml takes the name from the tag).  Untagged
XMLName fields are kept (their `Local` part).
-/
namespace Ofx
''']
def emit_struct(n):
    d = structs[n]
    S.append(f'/-- {d["file"]} {d["a"]}-{d["b"]} -/')
    S.append(f'structure {n} where')
    cnt = 0
    for name, t, tag in d['fields']:
        if name == 'XMLName':
            if tag is None:
                S.append('  XMLName : Str')
                cnt += 1
            continue
        S.append(f'  {name} : {leanty(t)}')
        cnt += 1
    S.append('')
def low(s):
    return s[0].lower() + s[1:]
def ctor(s):
    c = re.sub(r'^([A-Z]+)(?=[A-Z][a-z]|$)', lambda m: m.group(1).lower(), s)
    return c if c != s else low(s)
for n in order:
    if n in IFACE:
        f = 'seclist.go' if n == 'Security' else 'invstmt.go'
        a = src[f].count('\n', 0, src[f].index(f'type {n} interface')) + 1
        S.append(f'/-- {f} {a}: the concrete types accepted by the list that holds this interface. -/')
        S.append(f'inductive {n} where')
        for _, t in IFACE[n]:
            S.append(f'  | {ctor(t)} (v : Ofx.{t})')
        S.append('')
    elif n in LISTS and LISTS[n]['slicetype']:
        f = LISTS[n]['file']
        a = src[f].count('\n', 0, src[f].index(f'type {n} []')) + 1
        S.append(f'/-- {f} {a} -/')
        S.append(f'abbrev {n} := List {LISTS[n]["iface"]}')
        S.append('')
    elif n == 'MessageSetList':
        S.append('/-- profile.go 90 -/')
        S.append('abbrev MessageSetList := List MessageSet')
        S.append('')
    else:
        emit_struct(n)
S.append('end Ofx')
open(os.path.join(OUT, 'Structs.lean'), 'w').write('\n'.join(S) + '\n')

# ---- schema
def lstr(s):
    return '"' + s + '".toList'
def path(p):
    return '[' + ', '.join(lstr(x) for x in p) + ']'
def ty(t):
    if t.startswith('*'):
        return f'(.ptr {ty(t[1:])})'
    if t.startswith('[]'):
        return f'(.slice {ty(t[2:])})'
    if t in LEAF:
        return f'(.leaf {LEAF[t][1]})'
    return f'{t}.ty'
def toden(t, x):
    """expression converting x : leanty t to Den"""
    if t.startswith('*') or t.startswith('[]'):
        inner = t[1:] if t[0] == '*' else t[2:]
        k = 'Option' if t[0] == '*' else 'List'
        if inner in LEAF:
            return x
        return f'{k}.map {inner}.toDen {paren(x)}'
    if t in LEAF:
        return x
    return f'{t}.toDen {paren(x)}'
def ofden(t, x):
    if t.startswith('*') or t.startswith('[]'):
        inner = t[1:] if t[0] == '*' else t[2:]
        k = 'Option' if t[0] == '*' else 'List'
        if inner in LEAF:
            return x
        return f'{k}.map {inner}.ofDen {paren(x)}'
    if t in LEAF:
        return x
    return f'{t}.ofDen {paren(x)}'
P = ['''import Verif.Gen.Structs
import Verif.Gen.Enums
/-
GENERATED by tools/gen_structs.py from the struct tags of /repo -- do not edit.

For every Go struct: its schema (`fields`/`ty`), and the conversions between the Lean
structure and the values of the schema; converting there and back is the identity.
-/
namespace Ofx

theorem optInv {α β : Type} {f : α → β} {g : β → α} (h : ∀ y, f (g y) = y) (o : Option β) :
    Option.map f (Option.map g o) = o := by
  cases o <;> simp [h]
theorem listInv {α β : Type} {f : α → β} {g : β → α} (h : ∀ y, f (g y) = y) (l : List β) :
    List.map f (List.map g l) = l := by
  induction l <;> simp_all
''']
def inv(t):
    if t.startswith('*') or t.startswith('[]'):
        inner = t[1:] if t[0] == '*' else t[2:]
        if inner in LEAF:
            return 'rfl'
        return f'({"optInv" if t[0] == "*" else "listInv"} {inner}.toDen_ofDen _)'
    if t in LEAF:
        return 'rfl'
    return f'({t}.toDen_ofDen _)'
def invthm(n, dn, comps):
    P.append(f'theorem {n}.toDen_ofDen (d : {dn}) : {n}.toDen ({n}.ofDen d) = d :=')
    P.append('  ' + ''.join(f'Prod.ext {c} (' for c in comps[:-1]) + comps[-1] + ')' * (len(comps) - 1))
def flds(n):
    out = []
    for name, t, tag in structs[n]['fields']:
        if name == 'XMLName':
            continue
        if tag is None:
            out.append((name, t, [], name, False))
        else:
            parts = tag.split(',')
            ps = parts[0].split('>')
            out.append((name, t, ps[:-1], ps[-1], 'omitempty' in parts[1:]))
    return out
def xname(n):
    for name, t, tag in structs[n]['fields']:
        if name == 'XMLName':
            return ('free', None) if tag is None else ('tag', tag)
    return ('none', None)
def conv_lemmas(n, dep, extra=''):
    simp = ', '.join([f'{n}.toDen', f'{n}.ofDen'] + dep)
    return simp
ROUND = []
for n in order:
    if n in IFACE:
        P.append(f'/-- Concrete types of {n} with the names used to read and write them. -/')
        P.append(f'def {n}.alts : Alts :=')
        for dec, t in IFACE[n]:
            P.append(f'  .alt {lstr(dec)} {lstr(tname[t])} {t}.ty <|')
        P.append('  .nil')
        k = len(IFACE[n])
        P.append(f'def {n}.toDen : {n} → {n}.alts.Den')
        for i, (_, t) in enumerate(IFACE[n]):
            P.append(f'  | .{ctor(t)} v => ' + '.inr (' * i + f'.inl ({t}.toDen v)' + ')' * i)
        P.append(f'def {n}.ofDen : {n}.alts.Den → {n}')
        for i, (_, t) in enumerate(IFACE[n]):
            P.append('  | ' + '.inr (' * i + '.inl v' + ')' * i + f' => .{ctor(t)} ({t}.ofDen v)')
        P.append(f'@[simp] theorem {n}.ofDen_toDen (x : {n}) : {n}.ofDen ({n}.toDen x) = x := by')
        P.append(f'  cases x <;> simp [{n}.toDen, {n}.ofDen]')
        P.append(f'theorem {n}.toDen_ofDen : (d : {n}.alts.Den) → {n}.toDen ({n}.ofDen d) = d')
        for i, (_, t) in enumerate(IFACE[n]):
            P.append('  | ' + '.inr (' * i + '.inl v' + ')' * i + ' => ' + 'congrArg Sum.inr (' * i + f'congrArg Sum.inl ({t}.toDen_ofDen v)' + ')' * i)
        P.append('')
        continue
    if n in LISTS:
        L = LISTS[n]
        f = L['file']
        fields = []
        if n == 'InvTranList':
            P.append(f'/-- {f} {L["um"][0]}-{L["um"][1]} `{n}.UnmarshalXML`, {L["ma"][0]}-{L["ma"][1]} `MarshalXML` -/')
            P.append(f'def {n}.fields : Fields :=')
            for fld, nm in L['dates']:
                P.append(f'  .field [] {lstr(nm)} false (.leaf .date) <|')
            P.append(f'  .alts {L["iface"]}.alts <|')
            P.append(f'  .field [] {lstr(L["banks"][0])} false (.slice InvBankTransaction.ty) <|')
            P.append('  .nil')
            P.append(f'def {n}.ty : Ty := .closed {lstr(L["lit"])} false {n}.fields')
            P.append(f'def {n}.toDen (x : {n}) : {n}.ty.Den :=')
            P.append(f'  (x.DtStart, x.DtEnd, List.map InvTransaction.toDen x.InvTransactions, List.map InvBankTransaction.toDen x.BankTransactions, ())')
            P.append(f'def {n}.ofDen (d : {n}.ty.Den) : {n} :=')
            P.append(f'  ⟨d.1, d.2.1, List.map InvTransaction.ofDen d.2.2.1, List.map InvBankTransaction.ofDen d.2.2.2.1⟩')
        elif n == 'SecurityList':
            P.append(f'/-- {f} {L["um"][0]}-{L["um"][1]} `{n}.UnmarshalXML`, {L["ma"][0]}-{L["ma"][1]} `MarshalXML` -/')
            P.append(f'def {n}.fields : Fields := .alts {L["iface"]}.alts .nil')
            P.append(f'def {n}.ty : Ty := .closed {lstr(L["lit"])} false {n}.fields')
            P.append(f'def {n}.toDen (x : {n}) : {n}.ty.Den := (List.map Security.toDen x.Securities, ())')
            P.append(f'def {n}.ofDen (d : {n}.ty.Den) : {n} := ⟨List.map Security.ofDen d.1⟩')
        else:
            I = L['iface']
            P.append(f'/-- {f} {L["um"][0]}-{L["um"][1]} `{n}.UnmarshalXML`, {L["ma"][0]}-{L["ma"][1]} `MarshalXML` -/')
            P.append(f'def {n}.fields : Fields := .alts {I}.alts .nil')
            P.append(f'def {n}.ty : Ty := .closed {lstr(L["lit"])} true {n}.fields')
            P.append(f'def {n}.toDen (x : {n}) : {n}.ty.Den := (List.map {I}.toDen x, ())')
            P.append(f'def {n}.ofDen (d : {n}.ty.Den) : {n} := List.map {I}.ofDen d.1')
    elif n == 'MessageSetList':
        P.append('/-- profile.go 93-157 `MessageSetList.UnmarshalXML`, `MarshalXML` -/')
        P.append('def MessageSetList.ty : Ty := .msgSets MessageSet.tagged')
        P.append('def MessageSetList.toDen (x : MessageSetList) : MessageSetList.ty.Den := List.map MessageSet.toDen x')
        P.append('def MessageSetList.ofDen (d : MessageSetList.ty.Den) : MessageSetList := List.map MessageSet.ofDen d')
    else:
        d = structs[n]
        fs = flds(n)
        x = xname(n)
        P.append(f'/-- {d["file"]} {d["a"]}-{d["b"]} -/')
        if n == 'MessageSet':
            assert fs[0][0] == 'Name' and fs[0][2:] == ([], 'Name', False) and x[0] == 'free'
            P.append('def MessageSet.tagged : Fields :=')
            use = fs[1:]
        else:
            P.append(f'def {n}.fields : Fields :=')
            use = fs
        for name, t, p, nm, om in use:
            P.append(f'  .field {path(p)} {lstr(nm)} {"true" if om else "false"} {ty(t)} <|')
        P.append('  .nil')
        xs = {'free': '.free', 'none': '.none'}.get(x[0]) or f'(.tag {lstr(x[1])})'
        if n == 'MessageSet':
            P.append('abbrev MessageSet.Den := Str × Str × MessageSet.tagged.Den')
            dn = 'MessageSet.Den'
            first = ['x.XMLName']
            acc = ['d.1']
        else:
            P.append(f'def {n}.ty : Ty := .struct {xs} {n}.fields')
            dn = f'{n}.ty.Den'
            first = ['x.XMLName'] if x[0] == 'free' else ['()']
            acc = ['d.1'] if x[0] == 'free' else []
        comps = first + [toden(t, f'x.{name}') for name, t, *_ in fs] + ['()']
        P.append(f'def {n}.toDen (x : {n}) : {dn} :=')
        P.append('  (' + ', '.join(comps) + ')')
        for i, (name, t, *_ ) in enumerate(fs):
            acc.append(ofden(t, 'd' + '.2' * (i + 1) + '.1'))
        P.append(f'def {n}.ofDen (d : {dn}) : {n} :=')
        P.append('  ⟨' + ', '.join(acc) + '⟩')
    dn = 'MessageSet.Den' if n == 'MessageSet' else f'{n}.ty.Den'
    P.append(f'@[simp] theorem {n}.ofDen_toDen (x : {n}) : {n}.ofDen ({n}.toDen x) = x := by')
    IV = None
    if n == 'InvTranList':
        IV = ['rfl', 'rfl', '(listInv InvTransaction.toDen_ofDen _)', '(listInv InvBankTransaction.toDen_ofDen _)', 'rfl']
    elif n in LISTS:
        IV = [f'(listInv {LISTS[n]["iface"]}.toDen_ofDen _)', 'rfl']
    elif n != 'MessageSetList':
        IV = ['rfl'] + [inv(t) for _, t, *_ in flds(n)] + ['rfl']
    convs = any(base(t) not in LEAF and t[0] in '*[' for _, t, *_ in (structs[n]['fields'] if n in structs else [('', '[]x', '')]))
    P.append(f'  simp [{n}.toDen, {n}.ofDen' + (', Function.comp_def]' if convs else ']'))
    if IV:
        invthm(n, dn, IV)
    else:
        P.append(f'theorem {n}.toDen_ofDen (d : {dn}) : {n}.toDen ({n}.ofDen d) = d := listInv MessageSet.toDen_ofDen _')
    P.append('')
P.append('end Ofx')
# every definition cites the declaration it belongs to
cite = {}
for m in re.finditer(r'/-- ([\w/]+\.go [^\n]*?) -/\n(?:structure|inductive|abbrev) (\w+)', '\n'.join(S)):
    cite[m.group(2)] = m.group(1)
KIND = {'ty': 'schema', 'toDen': 'conversion to a value of the schema', 'ofDen': 'conversion from a value of the schema'}
def cited(text):
    out = []
    for l in text.split('\n'):
        m = re.match(r'def (\w+)\.(ty|toDen|ofDen)\b', l)
        if m and m.group(1) in cite and not (out and out[-1].endswith('-/')):
            out.append(f'/-- {cite[m.group(1)]}: {KIND[m.group(2)]}. -/')
        m = re.match(r'instance : OfxType (\w+)', l)
        if m and m.group(1) in cite:
            out.append(f'/-- {cite[m.group(1)]}. -/')
        out.append(l)
    return '\n'.join(out)
open(os.path.join(OUT, 'Schema.lean'), 'w').write(cited('\n'.join(P)) + '\n')
# ---- instances
I = ['''import Verif.Codec.Type
import Verif.Gen.Schema
/-
GENERATED by tools/gen_structs.py -- do not edit.

Every Go struct (and list type) of the messages is an `OfxType`: its schema is
well-formed, checked by the kernel over the whole schema.
-/
namespace Ofx
''']
for n in order:
    if n == 'MessageSetList':
        I.append("""theorem MessageSetList.wf : MessageSetList.ty.wf "MSGSETLIST".toList false = true := by decide +kernel
instance : OfxType MessageSetList where
  ty := MessageSetList.ty
  toDen := MessageSetList.toDen
  ofDen := MessageSetList.ofDen
  ofDen_toDen := MessageSetList.ofDen_toDen
  toDen_ofDen := MessageSetList.toDen_ofDen
  lit := some "MSGSETLIST".toList
  single := rfl
  wf := fun _ h => (h _ rfl) ▸ MessageSetList.wf
""")
    if n in IFACE or n in ('MessageSet', 'MessageSetList'):
        continue
    lit = f'some {lstr(LISTS[n]["lit"])}' if n in LISTS else 'none'
    I.append(f'theorem {n}.wf : {n}.fields.wf {n}.fields = true := by decide +kernel')
    I.append(f'instance : OfxType {n} where')
    I.append(f'  ty := {n}.ty')
    I.append(f'  toDen := {n}.toDen')
    I.append(f'  ofDen := {n}.ofDen')
    I.append(f'  ofDen_toDen := {n}.ofDen_toDen')
    I.append(f'  toDen_ofDen := {n}.toDen_ofDen')
    I.append(f'  lit := {lit}')
    I.append('  single := rfl')
    if n in LISTS:
        I.append(f'  wf := fun _ h => closed_wf h {n}.wf')
    else:
        I.append(f'  wf := fun _ _ => struct_wf {n}.wf')
    I.append('')
I.append('end Ofx')
open(os.path.join(OUT, 'Types.lean'), 'w').write(cited('\n'.join(I)) + '\n')
print(len(structs), 'structs', len(order), 'types')
