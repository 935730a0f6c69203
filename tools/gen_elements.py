#!/usr/bin/env python3
"""Generate lean/Verif/Spec/Elements.lean (which element each field of each structure is about,
written out) and lean/Verif/Lemmas/Elements.lean (that the schemas say the same)."""
import os, re, sys
sys.path.insert(0, os.path.dirname(os.path.abspath(__file__)))
import gen_structs as g
L = os.path.join(os.path.dirname(os.path.abspath(__file__)), '..', 'lean', 'Verif')
S = ['''import Verif.Spec.Leaves
/-
GENERATED by tools/gen_elements.py from the struct declarations of /repo -- do not edit.

What elements say about each structure, written out field by field: `XIs env es v` states that
the elements `es`, taken together, say that the `X` is `v`.
-/
namespace Ofx.Spec
open Ofx

/-- The elements called `name`, inside elements called as the path says, in the content of `es`. -/
def found (es : List (Str × List Node)) (path : List String) (name : String) : List (Str × List Node) :=
  elementsAt (path.map String.toList) name.toList (es.flatMap (fun e => e.2))

/-- The last of the elements holds the value; all can be read; without any it is the zero value. -/
def Holds (env : Env) (l : Leaf) (es : List (Str × List Node)) (v : l.Den) : Prop :=
  (∀ e ∈ es, ∃ x, LeafSays env l (leafText e.2) x) ∧
  match es.getLast? with
  | none => v = l.zero
  | some e => LeafSays env l (leafText e.2) v

/-- No elements, no value. -/
def Maybe {α : Type} (is : List (Str × List Node) → α → Prop) (es : List (Str × List Node)) (v : Option α) : Prop :=
  (es = [] ∧ v = none) ∨ (es ≠ [] ∧ ∃ x, v = some x ∧ is es x)

/-- One value for each element. -/
def Each {α : Type} (is : List (Str × List Node) → α → Prop) (es : List (Str × List Node)) (vs : List α) : Prop :=
  List.Forall₂ (fun e v => is [e] v) es vs

/-- All elements have the name. -/
def Called (name : String) (es : List (Str × List Node)) : Prop := ∀ e ∈ es, e.1 = name.toList

/-- One value for each element in the content of `es` that has one of the names. -/
def EachCalled {α : Type} (names : List String) (is : Str × List Node → α → Prop) (es : List (Str × List Node)) (vs : List α) : Prop :=
  List.Forall₂ is ((elems (es.flatMap (fun e => e.2))).filter (fun e => e.1 ∈ names.map String.toList)) vs

/-- Besides white space the content of `es` has elements with these names only. -/
def OnlyCalled (names : List String) (es : List (Str × List Node)) : Prop :=
  ∀ c ∈ es.flatMap (fun e => e.2), (∃ n ch, c = .elem n ch ∧ n ∈ names.map String.toList) ∨ ∃ s, c = .text s ∧ IsPadding s
''']
P = ['''import Verif.Spec.Elements
import Verif.Lemmas.SchemaSays
/-
GENERATED by tools/gen_elements.py -- do not edit.

The schemas of the structures say what Spec/Elements says.
-/
namespace Ofx
open Spec

theorem holds_iff {env : Env} {l : Leaf} {es : List (Str × List Node)} {v : l.Den} :
    Holds env l es v ↔ TySays env (.leaf l) es v := Iff.rfl

theorem maybe_iff {env : Env} {α : Type} {t : Ty} {is : List (Str × List Node) → α → Prop} {f : α → t.Den}
    (h : ∀ es v, is es v ↔ TySays env t es (f v)) {es : List (Str × List Node)} {v : Option α} :
    Maybe is es v ↔ TySays env (.ptr t) es (Option.map f v) := by
  refine or_congr (and_congr Iff.rfl ?_) (and_congr Iff.rfl ?_)
  · cases v <;> exact ⟨fun h => (by cases h <;> rfl), fun h => (by cases h <;> rfl)⟩
  · cases v with
    | none => exact ⟨fun ⟨_, h, _⟩ => (by cases h), fun ⟨_, h, _⟩ => (by cases h)⟩
    | some v =>
      constructor
      · rintro ⟨x, hx, hi⟩; cases hx; exact ⟨_, rfl, (h _ _).mp hi⟩
      · rintro ⟨x, hx, hi⟩; cases hx; exact ⟨_, rfl, (h _ _).mpr hi⟩

theorem forall₂_map_iff {α β γ : Type} {R : α → γ → Prop} {S : α → β → Prop} {f : γ → β} (h : ∀ a c, R a c ↔ S a (f c)) :
    ∀ {as : List α} {cs : List γ}, List.Forall₂ R as cs ↔ List.Forall₂ S as (cs.map f)
  | [], [] => ⟨fun _ => .nil, fun _ => .nil⟩
  | [], _ :: _ => ⟨fun h => (by cases h), fun h => (by cases h)⟩
  | _ :: _, [] => ⟨fun h => (by cases h), fun h => (by cases h)⟩
  | _ :: _, _ :: _ => ⟨fun | .cons a b => .cons ((h _ _).mp a) ((forall₂_map_iff h).mp b),
      fun | .cons a b => .cons ((h _ _).mpr a) ((forall₂_map_iff h).mpr b)⟩

theorem each_iff {env : Env} {α : Type} {t : Ty} {is : List (Str × List Node) → α → Prop} {f : α → t.Den}
    (h : ∀ es v, is es v ↔ TySays env t es (f v)) {es : List (Str × List Node)} {v : List α} :
    Each is es v ↔ TySays env (.slice t) es (List.map f v) := forall₂_map_iff (fun e v => h [e] v)

theorem maybe_leaf {env : Env} {l : Leaf} {es : List (Str × List Node)} {v : Option l.Den} :
    Maybe (Holds env l) es v ↔ TySays env (.ptr (.leaf l)) es v := Iff.rfl

theorem each_leaf {env : Env} {l : Leaf} {es : List (Str × List Node)} {v : List l.Den} :
    Each (Holds env l) es v ↔ TySays env (.slice (.leaf l)) es v := Iff.rfl

theorem called_iff {env : Env} {t : String} {fs : Fields} {es : List (Str × List Node)} {Q : Prop} {d : fs.Den}
    (h : Q ↔ FieldsSay env fs (es.flatMap (fun e => e.2)) d) :
    (Called t es ∧ Q) ↔ TySays env (.struct (.tag t.toList) fs) es ((), d) :=
  and_congr Iff.rfl (h.trans (iff_of_eq (true_and _)).symm)

theorem uncalled_iff {env : Env} {fs : Fields} {es : List (Str × List Node)} {Q : Prop} {d : fs.Den}
    (h : Q ↔ FieldsSay env fs (es.flatMap (fun e => e.2)) d) :
    Q ↔ TySays env (.struct .none fs) es ((), d) :=
  ⟨fun q => ⟨fun _ _ => trivial, trivial, h.mp q⟩, fun q => h.mpr q.2.2⟩

theorem free_iff {env : Env} {fs : Fields} {es : List (Str × List Node)} {Q : Prop} {x : Str} {d : fs.Den}
    (h : Q ↔ FieldsSay env fs (es.flatMap (fun e => e.2)) d) :
    (x = (es.getLast?.map (fun e => e.1)).getD [] ∧ Q) ↔ TySays env (.struct .free fs) es (x, d) :=
  ⟨fun q => ⟨fun _ _ => trivial, q.1, h.mp q.2⟩, fun q => ⟨q.2.1, h.mpr q.2.2⟩⟩

theorem field_iff {env : Env} {p : List Str} {n : Str} {o : Bool} {t : Ty} {rest : Fields} {cs : List Node} {A Q : Prop}
    {a : t.Den} {d : rest.Den} (ha : A ↔ TySays env t (elementsAt p n cs) a) (hq : Q ↔ FieldsSay env rest cs d) :
    (A ∧ Q) ↔ FieldsSay env (.field p n o t rest) cs (a, d) := and_congr ha hq

theorem last_iff {env : Env} {p : List Str} {n : Str} {o : Bool} {t : Ty} {cs : List Node} {A : Prop}
    {a : t.Den} (ha : A ↔ TySays env t (elementsAt p n cs) a) :
    A ↔ FieldsSay env (.field p n o t .nil) cs (a, ()) := ha.trans (iff_of_eq (and_true _)).symm

theorem alts_iff {env : Env} {as : Alts} {rest : Fields} {cs : List Node} {A Q : Prop} {a : List as.Den} {d : rest.Den}
    (ha : A ↔ List.Forall₂ (AltsSay env as) ((elems cs).filter (fun e => e.1 ∈ altNames as)) a) (hq : Q ↔ FieldsSay env rest cs d) :
    (A ∧ Q) ↔ FieldsSay env (.alts as rest) cs (a, d) := and_congr ha hq

theorem alts_last {env : Env} {as : Alts} {cs : List Node} {A : Prop} {a : List as.Den}
    (ha : A ↔ List.Forall₂ (AltsSay env as) ((elems cs).filter (fun e => e.1 ∈ altNames as)) a) :
    A ↔ FieldsSay env (.alts as .nil) cs (a, ()) := ha.trans (iff_of_eq (and_true _)).symm

theorem alt_here {env : Env} {name w : Str} {t : Ty} {rest : Alts} {e : Str × List Node} {Q : Prop} {x : t.Den}
    (h : Q ↔ TySays env t [e] x) : (e.1 = name ∧ Q) ↔ AltsSay env (.alt name w t rest) e (.inl x) := and_congr Iff.rfl h

theorem alt_skip {env : Env} {name name' w : Str} {t : Ty} {rest : Alts} {e : Str × List Node} {Q : Prop} {y : rest.Den}
    (hn : name' ≠ name) (h : (e.1 = name' ∧ Q) ↔ AltsSay env rest e y) :
    (e.1 = name' ∧ Q) ↔ AltsSay env (.alt name w t rest) e (.inr y) :=
  ⟨fun q => ⟨fun h' => hn (q.1.symm.trans h'), h.mp q⟩, fun q => h.mpr q.2⟩

theorem closed_iff {env : Env} {lit : Str} {o : Bool} {fs : Fields} {es : List (Str × List Node)} {A B C D E : Prop} {d : fs.Den}
    (h : (A ∧ B ∧ C ∧ D) ↔ FieldsSay env fs (es.flatMap (fun e => e.2)) d)
    (he : E ↔ ∀ c ∈ es.flatMap (fun e => e.2), (∃ n ch, c = .elem n ch ∧ n ∈ childNames fs []) ∨ ∃ s, c = .text s ∧ IsPadding s := by exact Iff.rfl) :
    (A ∧ B ∧ C ∧ D ∧ E) ↔ TySays env (.closed lit o fs) es d := by
  refine Iff.trans ?_ (and_congr h he)
  tauto

theorem set_iff {env : Env} {fs : Fields} {e : Str × List Node} {name : Str} {Q : List (Str × List Node) → Prop} {d : fs.Den}
    (h : ∀ es : List (Str × List Node), Q es ↔ FieldsSay env fs (es.flatMap (fun e => e.2)) d) :
    (∃ es, OnlyElements e.2 ∧ elems e.2 = es ∧ es.map (fun e => e.1) = [name] ∧ Q es) ↔
      ∃ ch, OnlyElements e.2 ∧ elems e.2 = [(name, ch)] ∧ FieldsSay env fs ch d := by
  constructor
  · rintro ⟨es, h1, h2, h3, h4⟩
    match es, h3 with
    | [(n, ch)], h3 =>
      have hn : n = name := by simpa using h3
      subst hn
      exact ⟨ch, h1, h2, by have := (h _).mp h4; rwa [List.flatMap_singleton] at this⟩
  · rintro ⟨ch, h1, h2, h3⟩
    exact ⟨_, h1, h2, rfl, (h _).mpr (by rwa [List.flatMap_singleton])⟩
''']
def lean_path(p):
    return '[' + ', '.join(f'"{x}"' for x in p) + ']'
def is_(t):
    """predicate on elements for Go type t, and its lemma"""
    if t.startswith('*'):
        a, b = is_(t[1:])
        return (f'Maybe ({a})', 'maybe_leaf' if t[1:] in g.LEAF else f'(maybe_iff (is := {t[1:]}Is env) (f := {t[1:]}.toDen) (fun _ _ => {b}))')
    if t.startswith('[]'):
        a, b = is_(t[2:])
        return (f'Each ({a})', 'each_leaf' if t[2:] in g.LEAF else f'(each_iff (is := {t[2:]}Is env) (f := {t[2:]}.toDen) (fun _ _ => {b}))')
    if t in g.LEAF:
        return (f'Holds env {g.LEAF[t][1]}', 'holds_iff')
    return (f'{t}Is env', f'{g.low(t)}Is_iff')
for n in g.order:
    low = g.low(n)
    if n in g.IFACE:
        S.append(f'/-- The element is this {n}. -/')
        S.append(f'def {n}Is (env : Env) (e : Str × List Node) : Ofx.{n} → Prop')
        for dec, t in g.IFACE[n]:
            S.append(f'  | .{g.ctor(t)} v => e.1 = "{dec}".toList ∧ {t}Is env [e] v')
        S.append('')
        S.append(f'/-- The names of the elements that are a {n}. -/')
        S.append(f'def names{n} : List String := [' + ', '.join(f'"{d}"' for d, _ in g.IFACE[n]) + ']')
        S.append('')
        P.append(f'theorem {low}Is_iff {{env : Env}} {{e : Str × List Node}} {{v : Ofx.{n}}} :')
        P.append(f'    {n}Is env e v ↔ AltsSay env {n}.alts e ({n}.toDen v) := by')
        P.append('  cases v with')
        for i, (dec, t) in enumerate(g.IFACE[n]):
            term = f'alt_here {g.low(t)}Is_iff'
            for j in range(i):
                term = f'alt_skip (by decide) ({term})'
            P.append(f'  | {g.ctor(t)} v => exact {term}')
        P.append('')
        continue
    if n == 'MessageSetList':
        S.append('/-- profile.go 90: one message set for each element in the content. -/')
        S.append('def MessageSetListIs (env : Env) (es : List (Str × List Node)) (v : Ofx.MessageSetList) : Prop :=')
        S.append('  OnlyElements (es.flatMap (fun e => e.2)) ∧ List.Forall₂ (MessageSetIs env) (elems (es.flatMap (fun e => e.2))) v')
        S.append('')
        P.append('theorem messageSetListIs_iff {env : Env} {es : List (Str × List Node)} {v : Ofx.MessageSetList} :')
        P.append('    MessageSetListIs env es v ↔ TySays env MessageSetList.ty es (MessageSetList.toDen v) :=')
        P.append('  and_congr Iff.rfl (forall₂_map_iff (R := MessageSetIs env) (f := MessageSet.toDen) (S := fun e x => x.2.1 = x.1 ∧ ∃ ch, OnlyElements e.2 ∧ elems e.2 = [(x.1, ch)] ∧ FieldsSay env MessageSet.tagged ch x.2.2) (fun _ _ => messageSetIs_iff))')
        P.append('')
        continue
    if n in g.LISTS:
        I = g.LISTS[n]['iface']
        cite = re.search(r'/-- ([^\n]*) -/\n(?:structure|abbrev) ' + n + r'\b', '\n'.join(g.S)).group(1)
        S.append(f'/-- {cite}. -/')
        S.append(f'def {n}Is (env : Env) (es : List (Str × List Node)) (v : Ofx.{n}) : Prop :=')
        P.append(f'theorem {low}Is_iff {{env : Env}} {{es : List (Str × List Node)}} {{v : Ofx.{n}}} :')
        P.append(f'    {n}Is env es v ↔ TySays env {n}.ty es ({n}.toDen v) :=')
        each = f'(forall₂_map_iff (R := {I}Is env) (S := AltsSay env {I}.alts) (f := {I}.toDen) (fun _ _ => {g.low(I)}Is_iff))'
        if n == 'InvTranList':
            S.append('  Holds env .date (found es [] "DTSTART") v.DtStart ∧')
            S.append('  Holds env .date (found es [] "DTEND") v.DtEnd ∧')
            S.append(f'  EachCalled names{I} ({I}Is env) es v.InvTransactions ∧')
            S.append('  Each (InvBankTransactionIs env) (found es [] "INVBANKTRAN") v.BankTransactions ∧')
            S.append(f'  OnlyCalled (["DTSTART", "DTEND"] ++ names{I} ++ ["INVBANKTRAN"]) es')
            P.append(f'  closed_iff (field_iff holds_iff (field_iff holds_iff (alts_iff {each} (last_iff (each_iff (is := InvBankTransactionIs env) (f := InvBankTransaction.toDen) (fun _ _ => invBankTransactionIs_iff))))))')
        else:
            v = 'v.Securities' if n == 'SecurityList' else 'v'
            S.append(f'  EachCalled names{I} ({I}Is env) es {v} ∧ OnlyCalled names{I} es')
            P.append(f'  and_congr (alts_last {each}) Iff.rfl')
        S.append('')
        P.append('')
        continue
    d = g.structs[n]
    fs, x = g.flds(n), g.xname(n)
    S.append(f'/-- {d["file"]} {d["a"]}-{d["b"]} -/')
    S.append(f'def {n}Is (env : Env) (es : List (Str × List Node)) (v : Ofx.{n}) : Prop :=')
    lines, prf = [], []
    if x[0] == 'tag':
        lines.append(f'Called "{x[1]}" es')
    elif x[0] == 'free':
        lines.append('v.XMLName = (es.getLast?.map (fun e => e.1)).getD []')
    for name, t, p, nm, om in fs:
        a, b = is_(t)
        lines.append(f'{a} (found es {lean_path(p)} "{nm}") v.{name}')
        prf.append(b)
    if n == 'MessageSet':
        S[-1] = 'def MessageSetIs (env : Env) (e : Str × List Node) (v : Ofx.MessageSet) : Prop :='
        S.append('  v.Name = v.XMLName ∧ ∃ es, OnlyElements e.2 ∧ elems e.2 = es ∧ es.map (fun e => e.1) = [v.XMLName] ∧')
        lines, prf = lines[2:], prf[1:]
    S.append('  ' + ' ∧\n  '.join(lines))
    S.append('')
    term = f'last_iff {prf[-1]}'
    for b in reversed(prf[:-1]):
        term = f'field_iff {b} ({term})'
    if n == 'MessageSet':
        P.append('theorem messageSetIs_iff {env : Env} {e : Str × List Node} {v : Ofx.MessageSet} :')
        P.append('    MessageSetIs env e v ↔ (v.Name = v.XMLName ∧ ∃ ch, OnlyElements e.2 ∧ elems e.2 = [(v.XMLName, ch)] ∧')
        P.append('      FieldsSay env MessageSet.tagged ch (MessageSet.toDen v).2.2) := by')
        P.append(f'  refine and_congr Iff.rfl (set_iff (fun es => {term}))')
        P.append('')
        continue
    h = {'tag': 'called_iff', 'free': 'free_iff', 'none': 'uncalled_iff'}[x[0]]
    P.append(f'theorem {low}Is_iff {{env : Env}} {{es : List (Str × List Node)}} {{v : Ofx.{n}}} :')
    P.append(f'    {n}Is env es v ↔ TySays env {n}.ty es ({n}.toDen v) :=')
    P.append(f'  {h} ({term})')
    P.append('')
S.append('end Ofx.Spec')
P.append('end Ofx')
open(os.path.join(L, 'Spec/Elements.lean'), 'w').write('\n'.join(S) + '\n')
open(os.path.join(L, 'Lemmas/Elements.lean'), 'w').write('\n'.join(P) + '\n')
