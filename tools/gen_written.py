#!/usr/bin/env python3
"""Generate lean/Verif/Spec/Written.lean (the elements written for each structure, written out)
and lean/Verif/Lemmas/WrittenElements.lean (that encoding the schemas writes these)."""
import os, re, sys
sys.dont_write_bytecode = True
sys.path.insert(0, os.path.dirname(os.path.abspath(__file__)))
import gen_structs as g
L = os.path.join(os.path.dirname(os.path.abspath(__file__)), '..', 'lean', 'Verif')
S = ['''import Verif.Spec.Meaning
/-
GENERATED by tools/gen_written.py from the struct declarations of /repo -- do not edit.

The elements written for each structure, in order: which are always there, and which are left
out when.  The texts are those of C01 to C17.
-/
namespace Ofx.Spec
open Ofx

/-- An element that holds the text of a value; none for undefined values of enumerations. -/
def always (l : Leaf) (name : String) (v : l.Den) : List Node :=
  match l.print v with
  | some text => [.elem name.toList (if text = [] then [] else [.text text])]
  | none => []

/-- Nothing if `p` holds. -/
def omitted (p : Prop) [Decidable p] (ns : List Node) : List Node := if p then [] else ns

/-- Nothing without a value. -/
def ifAny {α : Type} (f : α → List Node) : Option α → List Node
  | none => []
  | some v => f v

/-- An element that holds these elements. -/
def element (name : String) (content : List Node) : List Node := [.elem name.toList content]

/-- As `element`, for structures with an XMLName without a tag: the name set there, if any. -/
def named (own : Str) (name : String) (content : List Node) : List Node :=
  [.elem (if own = [] then name.toList else own) content]
''']
P = ['''import Verif.Spec.Written
import Verif.Codec.Type
import Verif.Gen.Types
/-
GENERATED by tools/gen_written.py -- do not edit.

Encoding the schemas writes what Spec/Written says.
-/
namespace Ofx
open Spec

theorem enc_always {l : Leaf} {name : String} {v : l.Den} : (Ty.leaf l).enc name.toList false v = .ok (always l name v) := by
  simp only [Ty.enc, always, Bool.false_and]
  cases l.print v <;> rfl
theorem enc_amount {name : String} {om : Bool} {v : Rat} : (Ty.leaf .amount).enc name.toList om v = .ok (always .amount name v) := by
  cases om <;> rfl
theorem enc_date {name : String} {om : Bool} {v : GoTime} : (Ty.leaf .date).enc name.toList om v = .ok (always .date name v) := by
  cases om <;> rfl
theorem enc_curr {name : String} {om : Bool} {v : CurrSymbol} : (Ty.leaf .curr).enc name.toList om v = .ok (always .curr name v) := by
  cases om <;> rfl
theorem enc_str {name : String} {v : Str} : (Ty.leaf .str).enc name.toList true v = .ok (omitted (v = []) (always .str name v)) := by
  cases v <;> rfl
theorem enc_uid {name : String} {v : Str} : (Ty.leaf .uid).enc name.toList true v = .ok (omitted (v = []) (always .uid name v)) := by
  cases v <;> rfl
theorem enc_bool {name : String} {v : Bool} : (Ty.leaf .bool).enc name.toList true v = .ok (omitted (v = false) (always .bool name v)) := by
  cases v <;> rfl
theorem enc_int {name : String} {v : Int} : (Ty.leaf .int).enc name.toList true v = .ok (omitted (v = 0) (always .int name v)) := by
  by_cases h : v = 0
  · subst h; rfl
  · have h' : Leaf.int.isEmpty v = false := decide_eq_false h
    simp only [Ty.enc, h', omitted, if_neg h]
    rfl
theorem enc_enum {t : EnumTable} {name : String} {v : Nat} :
    (Ty.leaf (.enum t)).enc name.toList true v = .ok (omitted (v = 0) (always (.enum t) name v)) := by
  by_cases h : v = 0
  · subst h; rfl
  · have h' : (Leaf.enum t).isEmpty v = false := decide_eq_false h
    simp only [Ty.enc, h', omitted, if_neg h, always]
    cases (Leaf.enum t).print v <;> rfl

theorem enc_ptr {t : Ty} {α : Type} {f : α → t.Den} {w : α → List Node} {name : Str} {om : Bool}
    (h : ∀ x, t.enc name false (f x) = .ok (w x)) {v : Option α} :
    (Ty.ptr t).enc name om (Option.map f v) = .ok (ifAny w v) := by
  cases v with
  | none => rfl
  | some x => exact h x
theorem enc_ptr_leaf {l : Leaf} {w : l.Den → List Node} {name : Str} {om : Bool}
    (h : ∀ x, (Ty.leaf l).enc name false x = .ok (w x)) {v : Option l.Den} :
    (Ty.ptr (.leaf l)).enc name om v = .ok (ifAny w v) := by
  cases v with
  | none => rfl
  | some x => exact h x

theorem mapE_flatMap {α β : Type} {f : β → Except String (List Node)} {k : α → β} {w : α → List Node} (h : ∀ x, f (k x) = .ok (w x)) :
    ∀ l : List α, mapE f (l.map k) = .ok (l.map w)
  | [] => rfl
  | x :: l => by
    have := mapE_flatMap h l
    simp [mapE, h x, this]

theorem enc_slice {t : Ty} {α : Type} {f : α → t.Den} {w : α → List Node} {name : Str} {om : Bool}
    (h : ∀ x, t.enc name om (f x) = .ok (w x)) {v : List α} :
    (Ty.slice t).enc name om (List.map f v) = .ok (v.flatMap w) := by
  have := mapE_flatMap (f := fun x => t.enc name om x) h v
  simp only [Ty.enc]
  erw [this]
  rfl
theorem enc_slice_leaf {l : Leaf} {w : l.Den → List Node} {name : Str} {om : Bool}
    (h : ∀ x, (Ty.leaf l).enc name om x = .ok (w x)) {v : List l.Den} :
    (Ty.slice (.leaf l)).enc name om v = .ok (v.flatMap w) := by
  have := enc_slice (t := .leaf l) (f := id) h (v := v)
  erw [List.map_id] at this
  exact this

theorem enc_nil : Fields.nil.enc () = .ok [] := rfl
theorem enc_cons {path : List Str} {name : Str} {om : Bool} {t : Ty} {rest : Fields} {a : t.Den} {d : rest.Den} {ns : List Node}
    {items : List Item} (h : t.enc name om a = .ok ns) (hr : rest.enc d = .ok items) :
    (Fields.field path name om t rest).enc (a, d) = .ok (⟨path, t.opens a, ns⟩ :: items) := by
  simp only [Fields.enc, h, hr]
theorem enc_alts {as : Alts} {rest : Fields} {α : Type} {f : α → as.Den} {w : α → List Node} {l : List α} {d : rest.Den}
    {items : List Item} (h : ∀ x, as.enc (f x) = .ok (w x)) (hr : rest.enc d = .ok items) :
    (Fields.alts as rest).enc (List.map f l, d) = .ok (⟨[], true, l.flatMap w⟩ :: items) := by
  have := mapE_flatMap (f := fun x => as.enc x) h l
  simp only [Fields.enc, this, hr]
  rfl

theorem enc_tag {tag : String} {fs : Fields} {d : fs.Den} {items : List Item} {content : List Node} (h : fs.enc d = .ok items)
    (he : emit fs.depth items = content) (name : Str) (om : Bool) :
    (Ty.struct (.tag tag.toList) fs).enc name om ((), d) = .ok (element tag content) := by
  simp only [Ty.enc, h, he]
  rfl
theorem enc_none {fs : Fields} {d : fs.Den} {items : List Item} {content : List Node} (h : fs.enc d = .ok items)
    (he : emit fs.depth items = content) (name : String) (om : Bool) :
    (Ty.struct .none fs).enc name.toList om ((), d) = .ok (element name content) := by
  simp only [Ty.enc, h, he]
  rfl
theorem enc_named {fs : Fields} {own : Str} {d : fs.Den} {items : List Item} {content : List Node} (h : fs.enc d = .ok items)
    (he : emit fs.depth items = content) (name : String) (om : Bool) :
    (Ty.struct .free fs).enc name.toList om (own, d) = .ok (named own name content) := by
  simp only [Ty.enc, h, he]
  rfl
theorem enc_closed {lit : String} {fs : Fields} {d : fs.Den} {items : List Item} {content : List Node} (h : fs.enc d = .ok items)
    (he : emit fs.depth items = content) (name : Str) (om : Bool) :
    (Ty.closed lit.toList false fs).enc name om d = .ok (element lit content) := by
  simp only [Ty.enc, h, he, Bool.and_false]
  rfl
theorem enc_closed_slice {lit : String} {as : Alts} {α : Type} {f : α → as.Den} {w : α → List Node} {l : List α}
    (h : ∀ x, as.enc (f x) = .ok (w x)) (name : Str) :
    (Ty.closed lit.toList true (.alts as .nil)).enc name true (List.map f l, ()) =
      .ok (omitted (l = []) (element lit (l.flatMap w))) := by
  cases l with
  | nil => rfl
  | cons x l =>
    have := enc_alts (as := as) (l := x :: l) h enc_nil
    have he : Fields.isEmpty (.alts as .nil) (List.map f (x :: l), ()) = false := rfl
    simp only [Ty.enc, this, he, Bool.and_false]
    simp only [Fields.depth, emit, omitted, element]
    rw [if_neg (by simp), if_neg (by simp)]
    simp

theorem alt_first {n : Str} {encName : String} {t : Ty} {rest : Alts} {x : t.Den} {tag : String} {content : List Node}
    (h : t.enc encName.toList false x = .ok (element tag content)) :
    (Alts.alt n encName.toList t rest).enc (.inl x) = .ok (element encName content) := by
  simp only [Alts.enc, h]
  rfl
theorem alt_next {n e : Str} {t : Ty} {rest : Alts} {y : rest.Den} {ns : List Node} (h : rest.enc y = .ok ns) :
    (Alts.alt n e t rest).enc (.inr y) = .ok ns := by
  simp only [Alts.enc, h]

attribute [local irreducible] always

/-- profile.go 136-152. -/
theorem enc_sets {fs : Fields} {α : Type} {f : α → Str × Str × fs.Den} {nm : α → Str} {w : α → List Node}
    (h1 : ∀ x, (f x).2.1 = nm x) (h2 : ∀ x, ∃ items, fs.enc (f x).2.2 = .ok items ∧ emit fs.depth items = w x)
    {l : List α} (hl : ∀ x ∈ l, ∃ short, short ≠ [] ∧ nm x = short ++ "V1".toList) (name : Str) :
    (Ty.msgSets fs).enc name false (List.map f l) =
      .ok (element "MSGSETLIST" (l.map fun x => .elem ((nm x).take ((nm x).length - 2))
        [.elem (nm x) (.elem "Name".toList (if nm x = [] then [] else [.text (nm x)]) :: w x)])) := by
  have key : ∀ l : List α, (∀ x ∈ l, ∃ short, short ≠ [] ∧ nm x = short ++ "V1".toList) →
      mapE (encMsgSet (fun y => fs.enc y) fs.depth) (List.map f l) = .ok (l.map fun x => .elem ((nm x).take ((nm x).length - 2))
        [.elem (nm x) (.elem "Name".toList (if nm x = [] then [] else [.text (nm x)]) :: w x)]) := by
    intro l hl
    induction l with
    | nil => rfl
    | cons x l ih =>
      have ih := ih (fun y hy => hl y (List.mem_cons_of_mem _ hy))
      obtain ⟨items, hi, hw⟩ := h2 x
      obtain ⟨short, hs, hn⟩ := hl x (List.mem_cons_self ..)
      have ht : trimV1 (nm x) = some ((nm x).take ((nm x).length - 2)) := by
        unfold trimV1
        rw [if_pos]
        rw [hn]
        exact ⟨by rw [List.isSuffixOf_iff_suffix]; exact ⟨short, rfl⟩, by
          have := List.length_pos_iff.mpr hs
          simp; omega⟩
      have : encMsgSet (fun y => fs.enc y) fs.depth (f x) = .ok (.elem ((nm x).take ((nm x).length - 2))
          [.elem (nm x) (.elem "Name".toList (if nm x = [] then [] else [.text (nm x)]) :: w x)]) := by
        unfold encMsgSet
        rw [h1, ht]
        simp only [hi, hw, textNode]
      simp only [List.map_cons, mapE, this, ih]
  have := key l hl
  simp only [Ty.enc, Bool.false_and]
  erw [this]
  rfl
''']
ZERO = {'.str': '[]', '.uid': '[]', '.int': '0', '.bool': 'false'}
PROF = set()
def leafw(t, nm, om, v):
    l = g.LEAF[t][1]
    if om and l in ZERO:
        return f'omitted ({v} = {ZERO[l]}) (always {l} "{nm}" {v})', 'enc_' + l[1:]
    if om and l.startswith('(.enum'):
        return f'omitted ({v} = 0) (always {l} "{nm}" {v})', 'enc_enum'
    if om:
        return f'always {l} "{nm}" {v}', 'enc_' + l[1:]
    return f'always {l} "{nm}" {v}', 'enc_always'
def structw(t, nm, v):
    x = g.xname(t)
    if x[0] == 'free':
        return f'named {v}.XMLName "{nm}" ({g.low(t)}Content {v})', f'({g.low(t)}_enc "{nm}" _)'
    n = x[1] if x[0] == 'tag' else nm
    lem = f'({g.low(t)}_enc {"_" if x[0] == "tag" else chr(34) + nm + chr(34)} _)'
    return f'element "{n}" ({g.low(t)}Content {v})', lem
def w(t, nm, om, v):
    """expression for the nodes written and lemma"""
    if t.startswith('*'):
        b = t[1:]
        if b in g.LEAF:
            e, l = leafw(b, nm, False, 'x')
            return f'ifAny (fun x => {e}) {v}', f'(enc_ptr_leaf (w := fun x => {e}) (fun _ => {l}))'
        e, l = w(b, nm, False, 'x')
        return f'ifAny (fun x => {e}) {v}', f'(enc_ptr (f := {b}.toDen) (w := fun x => {e}) (fun _ => {l}))'
    if t.startswith('[]'):
        b = t[2:]
        if b in g.LEAF:
            e, l = leafw(b, nm, om, 'x')
            return f'{v}.flatMap (fun x => {e})', f'(enc_slice_leaf (w := fun x => {e}) (fun _ => {l}))'
        e, l = w(b, nm, om, 'x')
        return f'{v}.flatMap (fun x => {e})', f'(enc_slice (f := {b}.toDen) (w := fun x => {e}) (fun _ => {l}))'
    if t in g.LEAF:
        return leafw(t, nm, om, v)
    if t in g.LISTS and g.LISTS[t]['slicetype']:
        assert om
        I, lit = g.LISTS[t]['iface'], g.LISTS[t]['lit']
        return (f'omitted ({v} = []) (element "{lit}" ({v}.flatMap {g.low(I)}Xml))',
                f'(enc_closed_slice (f := {I}.toDen) (w := {g.low(I)}Xml) (fun _ => {g.low(I)}_enc) _)')
    if t in g.LISTS:
        return f'element "{g.LISTS[t]["lit"]}" ({g.low(t)}Content {v})', f'({g.low(t)}_enc _ _)'
    if t == 'MessageSetList':
        return f'element "MSGSETLIST" ({v}.map messageSetXml)', '(enc_sets (f := MessageSet.toDen) (nm := fun x => x.Name) (w := messageSetContent) (fun _ => rfl) messageSet_enc h _)'
    return structw(t, nm, v)
def group(fs, depth=0):
    """lines for fields [(path, expr, ptr expr or None)], in runs"""
    out, i = [], 0
    while i < len(fs):
        p, e, ptr = fs[i]
        if not p:
            out.append((e, None)); i += 1; continue
        j = i
        while j < len(fs) and fs[j][0] and fs[j][0][0] == p[0]:
            j += 1
        run = [(q[1:], e2, p2) for q, e2, p2 in fs[i:j]]
        out.append((p[0], group(run, depth + 1), [p2 for _, _, p2 in run]))
        i = j
    return out
def show(gr, ind):
    lines = []
    for x in gr:
        if x[1] is None:
            lines.append(ind + x[0])
        else:
            name, inner, ptrs = x
            body = ',\n'.join(show(inner, ind + '  '))
            el = f'element "{name}" <| List.flatten [\n{body}]'
            if all(p is not None for p in ptrs):
                c = ' ∧ '.join(f'{p} = none' for p in ptrs)
                el = f'omitted ({c}) <| ' + el
            lines.append(ind + el)
    return lines
for n in g.order:
    low = g.low(n)
    if n in g.IFACE:
        S.append(f'/-- The element written for a {n}. -/')
        S.append(f'def {low}Xml : Ofx.{n} → List Node')
        P.append(f'theorem {low}_enc {{v : Ofx.{n}}} : {n}.alts.enc ({n}.toDen v) = .ok ({low}Xml v) := by')
        P.append('  cases v with')
        for i, (dec, t) in enumerate(g.IFACE[n]):
            S.append(f'  | .{g.ctor(t)} v => element "{g.tname[t]}" ({g.low(t)}Content v)')
            term = f'alt_first ({g.low(t)}_enc _ _)'
            for _ in range(i):
                term = f'alt_next ({term})'
            P.append(f'  | {g.ctor(t)} v => exact {term}')
        S.append(''); P.append('')
        continue
    if n in g.LISTS and g.LISTS[n]['slicetype']:
        continue
    if n == 'MessageSetList':
        continue
    if n in g.LISTS:
        I = g.LISTS[n]['iface']
        cite = re.search(r'/-- ([^\n]*) -/\n(?:structure|abbrev) ' + n + r'\b', '\n'.join(g.S)).group(1)
        S.append(f'/-- {cite} -/')
        S.append(f'def {low}Content (v : Ofx.{n}) : List Node :=')
        P.append(f'theorem {low}_enc {{v : Ofx.{n}}} (name : Str) (om : Bool) :')
        P.append(f'    {n}.ty.enc name om ({n}.toDen v) = .ok (element "{g.LISTS[n]["lit"]}" ({low}Content v)) :=')
        if n == 'InvTranList':
            S.append('  List.flatten [')
            S.append('  always .date "DTSTART" v.DtStart,')
            S.append('  always .date "DTEND" v.DtEnd,')
            S.append(f'  v.InvTransactions.flatMap {g.low(I)}Xml,')
            S.append('  v.BankTransactions.flatMap (fun x => element "INVBANKTRAN" (invBankTransactionContent x))]')
            P.append(f'  enc_closed (enc_cons enc_always (enc_cons enc_always (enc_alts (f := {I}.toDen) (w := {g.low(I)}Xml) (fun _ => {g.low(I)}_enc) (enc_cons (enc_slice (f := InvBankTransaction.toDen) (w := fun x => element "INVBANKTRAN" (invBankTransactionContent x)) (fun _ => (invBankTransaction_enc _ _))) enc_nil)))) rfl name om')
        else:
            S.append(f'  v.Securities.flatMap {g.low(I)}Xml')
            P.append(f'  enc_closed (enc_alts (f := {I}.toDen) (w := {g.low(I)}Xml) (fun _ => {g.low(I)}_enc) enc_nil) (List.append_nil _) name om')
        S.append(''); P.append('')
        continue
    d = g.structs[n]
    fs, x = g.flds(n), g.xname(n)
    hyp = any(t == 'MessageSetList' for _, t, *_ in fs)
    if n == 'MessageSet':
        fs = fs[1:]
    exprs, lems = [], []
    for name, t, p, nm, om in fs:
        e, l = w(t, nm, om, f'v.{name}')
        exprs.append((p, e, f'v.{name}' if t.startswith('*') else None))
        lems.append(l)
    S.append(f'/-- {d["file"]} {d["a"]}-{d["b"]} -/')
    S.append(f'def {low}Content (v : Ofx.{n}) : List Node := List.flatten [')
    S.append(',\n'.join(show(group(exprs), '  ')) + ']')
    S.append('')
    term = 'enc_nil'
    for l in reversed(lems):
        term = f'enc_cons {l} ({term})'
    if n == 'MessageSet':
        S.append('/-- profile.go 136-152: the version 1 of a message set, in an element without the V1 in its name. -/')
        S.append('def messageSetXml (v : Ofx.MessageSet) : Node :=')
        S.append('  .elem (v.Name.take (v.Name.length - 2))')
        S.append('    [.elem v.Name (.elem "Name".toList (if v.Name = [] then [] else [.text v.Name]) :: messageSetContent v)]')
        S.append('')
        P.append('theorem messageSet_enc (v : Ofx.MessageSet) :')
        P.append('    ∃ items, MessageSet.tagged.enc (MessageSet.toDen v).2.2 = .ok items ∧ emit MessageSet.tagged.depth items = messageSetContent v :=')
        P.append(f'  ⟨_, {term}, rfl⟩')
        P.append('')
        continue
    lead = []   # pointers that decide whether a parent is opened
    for q in range(len(fs)):
        name, t, p, nm, om = fs[q]
        if p and t.startswith('*'):
            lead.append(name)
    depth = max([len(p) for _, _, p, _, _ in fs] or [0])
    # only pointers at the start of a run of their innermost parent matter
    need = []
    for q in range(len(fs)):
        name, t, p, nm, om = fs[q]
        if p and t.startswith('*'):
            k = q - 1
            while k >= 0 and fs[k][2] == p and fs[k][1].startswith('*'):
                k -= 1
            if k < 0 or fs[k][2][:len(p)] != p:
                need.append(name)
    prf = 'rfl'
    if need:
        allf = [f[0] for f in fs]
        pat = ', '.join(f'f{i}' for i in range(len(allf)))
        cs = ' <;> '.join(f'cases f{allf.index(a)}' for a in need)
        prf = f'(by obtain ⟨{pat}⟩ := v; {cs} <;> rfl)'
    h = '(h : ∀ s ∈ v.MessageSetList, ∃ short, short ≠ [] ∧ s.Name = short ++ "V1".toList) ' if hyp else ''
    if n == 'CCStatementResponse':
        P.append('set_option maxHeartbeats 2000000 in')
    if x[0] == 'tag':
        P.append(f'theorem {low}_enc {{v : Ofx.{n}}} {h}(name : Str) (om : Bool) :')
        P.append(f'    {n}.ty.enc name om ({n}.toDen v) = .ok (element "{x[1]}" ({low}Content v)) :=')
        P.append(f'  enc_tag ({term}) {prf} name om')
    elif x[0] == 'free':
        P.append(f'theorem {low}_enc {{v : Ofx.{n}}} {h}(name : String) (om : Bool) :')
        P.append(f'    {n}.ty.enc name.toList om ({n}.toDen v) = .ok (named v.XMLName name ({low}Content v)) :=')
        P.append(f'  enc_named ({term}) {prf} name om')
    else:
        P.append(f'theorem {low}_enc {{v : Ofx.{n}}} {h}(name : String) (om : Bool) :')
        P.append(f'    {n}.ty.enc name.toList om ({n}.toDen v) = .ok (element name ({low}Content v)) :=')
        P.append(f'  enc_none ({term}) {prf} name om')
    P.append('')
S.append('end Ofx.Spec')
P.append('end Ofx')
open(os.path.join(L, 'Spec/Written.lean'), 'w').write('\n'.join(S) + '\n')
open(os.path.join(L, 'Lemmas/WrittenElements.lean'), 'w').write('\n'.join(P) + '\n')
