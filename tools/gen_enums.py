#!/usr/bin/env python3
"""Generate lean/Verif/Gen/Enums.lean from /repo/constants.go.

Checks that every method of every enumeration is, character for character, the
instance of one template (so one generic model covers all of them) and extracts
what differs: type name, declared constants (1+iota in order), string table,
and the two constants bounding Valid()."""
import re,sys
src=open('/repo/constants.go').read()
lines=src.split('\n')
def lineno(pos): return src.count('\n',0,pos)+1
TEMPLATE='''
func (e {L}) Valid() bool {{
	// This check is mostly out of paranoia, ensuring e != 0 should be
	// sufficient
	return e >= {first} && e <= {last}
}}

func (e {L}) String() string {{
	if e.Valid() {{
		return {L}s[e-1]
	}}
	return fmt.Sprintf("invalid {L} (%d)", e)
}}

func (e *{L}) FromString(in string) error {{
	value := strings.TrimSpace(in)

	for i, s := range {L}s {{
		if s == value {{
			*e = {L}(i + 1)
			return nil
		}}
	}}
	*e = 0
	return errors.New("Invalid {U}: \\"" + in + "\\"")
}}

func (e *{L}) UnmarshalXML(d *xml.Decoder, start xml.StartElement) error {{
	var value string
	err := d.DecodeElement(&value, &start)
	if err != nil {{
		return err
	}}

	return e.FromString(value)
}}

func (e {L}) MarshalXML(enc *xml.Encoder, start xml.StartElement) error {{
	if !e.Valid() {{
		return nil
	}}
	enc.EncodeElement({L}s[e-1], start)
	return nil
}}

// New{U} returns returns an 'enum' value of type {L} given its
// string representation
func New{U}(s string) ({L}, error) {{
	var e {L}
	err := e.FromString(s)
	if err != nil {{
		return 0, err
	}}
	return e, nil
}}
'''
out=[]
defs=[]
types=list(re.finditer(r'^type (\w+) uint$',src,re.M))
for k,m in enumerate(types):
    L=m.group(1); U=L[0].upper()+L[1:]
    end=types[k+1].start() if k+1<len(types) else len(src)
    body=src[m.start():end]
    cm=re.search(r'const \(\n(.*?)\n\)\n',body,re.S)
    cl=[x.strip() for x in cm.group(1).split('\n')]
    assert cl[0].endswith('%s = 1 + iota'%L),cl[0]
    consts=[cl[0].split()[0]]+cl[1:]
    assert all(re.fullmatch(r'\w+',c) for c in consts)
    vm=re.search(r'^var %ss = \[\.\.\.\]string\{(.*)\}$'%L,body,re.M)
    names=re.findall(r'"([^"]*)"',vm.group(1))
    assert ', '.join('"%s"'%n for n in names)==vm.group(1)
    bm=re.search(r'return e >= (\w+) && e <= (\w+)',body)
    first,last=bm.groups()
    rest=body[vm.end():]
    exp=TEMPLATE.format(L=L,U=U,first=first,last=last)
    got=rest.split('\n// %s'%'')[0]
    # what follows the table must start with the template instance, and after it only the next type's blank line
    r=rest.lstrip('\n'); e=exp.lstrip('\n')
    assert r.startswith(e),(L,)
    tail=r[len(e):].strip()
    assert tail=='',(L,tail)
    defs.append((L,U,consts,names,consts.index(first)+1,consts.index(last)+1,lineno(m.start()),lineno(m.start()+len(body.rstrip()))))
def chars(s): return '"%s".toList'%s
out.append('''import Verif.Model.Enum
/-
GENERATED by tools/gen_enums.py from /repo/constants.go -- do not edit.

One `EnumTable` per enumeration: its Go type name, the declared constants in
order (the i-th has the value 1+i, Go's `1 + iota`), the string table, and the
values of the two constants used as bounds in its `Valid` method.
-/
namespace Ofx
''')
for (L,U,consts,names,first,last,a,b) in defs:
    out.append('/-- constants.go %d-%d -/'%(a,b))
    out.append('def enum%s : EnumTable where'%U)
    out.append('  goType := "%s"'%L)
    out.append('  prefix_ := "%s"'%U)
    out.append('  consts := [%s]'%', '.join('"%s"'%c for c in consts))
    out.append('  names := [%s]'%', '.join(chars(n) for n in names))
    out.append('  first := %d'%first)
    out.append('  last := %d'%last)
    out.append('')
out.append('/-- All %d enumerations of constants.go, in file order. -/'%len(defs))
out.append('def allEnums : List EnumTable := [%s]'%', '.join('enum'+d[1] for d in defs))
out.append('\nend Ofx\n')
open('/verif/lean/Verif/Gen/Enums.lean','w').write('\n'.join(out))
print(len(defs))
