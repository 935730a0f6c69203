import Verif.Spec.Saved
import Verif.Lemmas.Shape
import Verif.Lemmas.Exact
import Verif.Lemmas.Enum
import Verif.Codec.Tree
/-
What decoding puts into values, whatever the document.
-/
namespace Ofx
open Spec

/-- What a leaf holds after decoding. -/
def LeafRead (env : Env) : (l : Leaf) → l.Den → Prop
  | .str, v => IsTrim v ∧ AllXml v
  | .uid, v => IsTrim v ∧ AllXml v
  | .int, v => InInt64 v
  | .bool, _ => True
  | .amount, _ => True
  | .date, _ => True
  | .curr, v => v = CurrSymbol.zero ∨ ∃ text, @CurrSymbol.unmarshal env.curr text = .ok v
  | .enum t, v => t ∈ allEnums → ((show Nat from v) = 0 ∨ t.valid v = true)

theorem trimSpace_sublist (s : Str) : (trimSpace s).Sublist s := by
  unfold trimSpace trimRightP trimLeftP
  refine List.Sublist.trans ?_ (List.dropWhile_sublist isSpace)
  have h := (List.dropWhile_sublist isSpace (l := (s.dropWhile isSpace).reverse)).reverse
  rwa [List.reverse_reverse] at h

theorem leaf_zero_read (env : Env) : (l : Leaf) → LeafRead env l l.zero
  | .str => ⟨(isTrim_iff []).mpr (trimSpace_trimmed []), .nil⟩
  | .uid => ⟨(isTrim_iff []).mpr (trimSpace_trimmed []), .nil⟩
  | .int => by show InInt64 0; unfold InInt64; decide
  | .bool => trivial
  | .amount => trivial
  | .date => trivial
  | .curr => .inl rfl
  | .enum _ => fun _ => .inl rfl

theorem leaf_parse_read (env : Env) : (l : Leaf) → ∀ (s : Str) (v : l.Den), AllXml s → l.parse env s = .ok v → LeafRead env l v
  | .str, s, v, hs, h => by
    cases h
    exact ⟨(isTrim_iff _).mpr (trimSpace_trimmed s), allXml_sublist (trimSpace_sublist s) hs⟩
  | .uid, s, v, hs, h => by
    cases h
    exact ⟨(isTrim_iff _).mpr (trimSpace_trimmed s), allXml_sublist (trimSpace_sublist s) hs⟩
  | .int, s, v, _, h => by
    change Int at v
    replace h : Int.unmarshal s = .ok v := h
    unfold Int.unmarshal at h
    cases hp : parseInt64 (trimSpace s) with
    | none => rw [hp] at h; cases h
    | some i => rw [hp] at h; cases h; exact ((parseInt64_iff _ _).mp hp).2
  | .bool, _, _, _, _ => trivial
  | .amount, _, _, _, _ => trivial
  | .date, _, _, _, _ => trivial
  | .curr, s, v, _, h => .inr ⟨s, h⟩
  | .enum t, s, v, _, h => by
    intro ht
    right
    have g := good_of_mem ht
    replace h : t.unmarshal s = .ok v := h
    unfold EnumTable.unmarshal at h
    cases hf : t.fromString s with
    | mk e err =>
      rw [hf] at h
      cases err with
      | some _ => cases h
      | none => cases h; exact ((g.fromString_iff s _).mp hf).1

/-- Trees whose texts consist of characters XML allows. -/
inductive NodeXml : Node → Prop
  | text {s : Str} : AllXml s → NodeXml (.text s)
  | misc : NodeXml .misc
  | elem {n : Str} {cs : List Node} : (∀ c ∈ cs, NodeXml c) → NodeXml (.elem n cs)

theorem NodeXml.children {n : Str} {cs : List Node} (h : NodeXml (.elem n cs)) : ∀ c ∈ cs, NodeXml c := by
  cases h with
  | elem h => exact h

theorem leafText_xml : (cs : List Node) → (∀ c ∈ cs, NodeXml c) → AllXml (leafText cs)
  | [], _ => .nil
  | .text s :: rest, h => by
    have h1 := h _ (List.mem_cons_self ..)
    cases h1 with
    | text h1 => exact .append h1 (leafText_xml rest (fun c hc => h c (List.mem_cons_of_mem _ hc)))
  | .misc :: rest, h => leafText_xml rest (fun c hc => h c (List.mem_cons_of_mem _ hc))
  | .elem _ _ :: rest, h => leafText_xml rest (fun c hc => h c (List.mem_cons_of_mem _ hc))

/-- The children an event carries. -/
def EvXml : Ev → Prop
  | .hit _ _ cs => ∀ c ∈ cs, NodeXml c
  | .junk => True

mutual
theorem events_xml (fs : Fields) : (n : Node) → ∀ p, NodeXml n → ∀ e ∈ fs.events p n, EvXml e
  | .elem n cs, p, h => by
    intro e he
    rw [Fields.events] at he
    by_cases h1 : fs.hits p n = true
    · rw [if_pos h1] at he
      cases List.mem_singleton.mp he
      exact h.children
    · rw [if_neg h1] at he
      by_cases h2 : fs.under (p ++ [n]) = true
      · rw [if_pos h2] at he
        exact eventsL_xml fs cs _ h.children e he
      · rw [if_neg h2] at he
        cases List.mem_singleton.mp he
        trivial
  | .text s, p, _ => by
    intro e he
    rw [Fields.events] at he
    split at he
    · cases he
    · cases List.mem_singleton.mp he; trivial
  | .misc, p, _ => by
    intro e he
    rw [Fields.events] at he
    cases List.mem_singleton.mp he; trivial
theorem eventsL_xml (fs : Fields) : (cs : List Node) → ∀ p, (∀ c ∈ cs, NodeXml c) → ∀ e ∈ fs.eventsL p cs, EvXml e
  | [], _, _ => by
    intro e he
    rw [Fields.eventsL] at he
    cases he
  | c :: cs, p, h => by
    intro e he
    rw [Fields.eventsL] at he
    rcases List.mem_append.mp he with he | he
    · exact events_xml fs c p (h c (List.mem_cons_self ..)) e he
    · exact eventsL_xml fs cs p (fun x hx => h x (List.mem_cons_of_mem _ hx)) e he
end

theorem runEvents_inv {α : Type} {P : α → Prop} {strict : Bool} {step : α → List Str → Str → List Node → Except String α}
    (hstep : ∀ v p n cs v', P v → (∀ c ∈ cs, NodeXml c) → step v p n cs = .ok v' → P v') :
    ∀ (es : List Ev) (v v' : α), (∀ e ∈ es, EvXml e) → P v → runEvents strict step v es = .ok v' → P v'
  | [], v, v', _, hv, h => by rw [runEvents] at h; cases h; exact hv
  | .hit p n cs :: es, v, v', he, hv, h => by
    rw [runEvents] at h
    cases hs : step v p n cs with
    | error e => rw [hs] at h; cases h
    | ok w =>
      rw [hs] at h
      exact runEvents_inv hstep es w v' (fun e h => he e (List.mem_cons_of_mem _ h))
        (hstep v p n cs w hv (he _ (List.mem_cons_self ..)) hs) h
  | .junk :: es, v, v', he, hv, h => by
    rw [runEvents] at h
    split at h
    · cases h
    · exact runEvents_inv hstep es v v' (fun e h => he e (List.mem_cons_of_mem _ h)) hv h

/-! ### Values -/

mutual
/-- What a value holds after decoding. -/
def TyRead (env : Env) : (t : Ty) → Str → t.Den → Prop
  | .leaf l, _, v => LeafRead env l v
  | .struct xn fs, name, v => XNameExact xn name v.1 ∧ FieldsRead env fs v.2
  | .closed _ _ fs, _, v => FieldsRead env fs v
  | .ptr t, name, v => ∀ x ∈ (show Option t.Den from v), TyRead env t name x
  | .slice t, name, v => ∀ x ∈ (show List t.Den from v), TyRead env t name x
  | .msgSets fs, _, v => ∀ x ∈ (show List (Str × Str × fs.Den) from v), FieldsRead env fs x.2.2
def FieldsRead (env : Env) : (fs : Fields) → fs.Den → Prop
  | .nil, _ => True
  | .field _ name _ t rest, v => TyRead env t name v.1 ∧ FieldsRead env rest v.2
  | .alts as rest, v => (∀ x ∈ (show List as.Den from v.1), AltsRead env as x) ∧ FieldsRead env rest v.2
def AltsRead (env : Env) : (as : Alts) → as.Den → Prop
  | .nil, _ => True
  | .alt dec _ t rest, v =>
    match (show t.Den ⊕ rest.Den from v) with
    | .inl x => TyRead env t dec x
    | .inr y => AltsRead env rest y
end

/-- The same without the name of the element itself. -/
def InnerRead (env : Env) : (t : Ty) → Str → t.Den → Prop
  | .struct _ fs, _, v => FieldsRead env fs v.2
  | .leaf l, _, v => LeafRead env l v
  | .closed _ _ fs, _, v => FieldsRead env fs v
  | .ptr t, name, v => TyRead env (.ptr t) name v
  | .slice t, name, v => TyRead env (.slice t) name v
  | .msgSets fs, name, v => TyRead env (.msgSets fs) name v

mutual
/-- Structures that are not behind a pointer or in a slice are declared with the name they
occur under (`strict`: this one, too). -/
def TyPlain (strict : Bool) : Ty → Str → Bool
  | .leaf _, _ => true
  | .struct (.tag t) fs, name => (!strict || t == name) && FieldsPlain fs
  | .struct .none fs, _ => FieldsPlain fs
  | .struct .free fs, _ => FieldsPlain fs
  | .closed _ _ fs, _ => FieldsPlain fs
  | .ptr t, name => TyPlain false t name
  | .slice t, name => TyPlain false t name
  | .msgSets fs, _ => FieldsPlain fs
def FieldsPlain : Fields → Bool
  | .nil => true
  | .field _ name _ t rest => TyPlain true t name && FieldsPlain rest
  | .alts as rest => AltsPlain as && FieldsPlain rest
def AltsPlain : Alts → Bool
  | .nil => true
  | .alt dec _ t rest => TyPlain false t dec && AltsPlain rest
end

theorem plain_weaken : (t : Ty) → ∀ name, TyPlain true t name = true → TyPlain false t name = true
  | .leaf _, _, h => h
  | .struct (.tag t) fs, name, h => by
    simp only [TyPlain, Bool.and_eq_true] at h ⊢
    exact ⟨rfl, h.2⟩
  | .struct .none fs, _, h => h
  | .struct .free fs, _, h => h
  | .closed _ _ fs, _, h => h
  | .ptr t, name, h => h
  | .slice t, name, h => h
  | .msgSets fs, _, h => h

theorem inner_of_read (env : Env) : (t : Ty) → ∀ name v, TyRead env t name v → InnerRead env t name v
  | .leaf _, _, _, h => h
  | .struct _ _, _, _, h => h.2
  | .closed _ _ _, _, _, h => h
  | .ptr _, _, _, h => h
  | .slice _, _, _, h => h
  | .msgSets _, _, _, h => h

mutual
theorem ty_zero_read (env : Env) : (t : Ty) → ∀ name, TyPlain true t name = true → TyRead env t name t.zero
  | .leaf l, _, _ => leaf_zero_read env l
  | .struct (.tag t) fs, name, h => by
    simp only [TyPlain, Bool.and_eq_true, Bool.not_true, Bool.false_or, beq_iff_eq] at h
    exact ⟨h.1, fields_zero_read env fs h.2⟩
  | .struct .none fs, name, h => ⟨trivial, fields_zero_read env fs h⟩
  | .struct .free fs, name, h => ⟨.inl rfl, fields_zero_read env fs h⟩
  | .closed _ _ fs, _, h => fields_zero_read env fs h
  | .ptr t, name, _ => fun x hx => by cases hx
  | .slice t, name, _ => fun x hx => by cases hx
  | .msgSets fs, _, _ => fun x hx => by cases hx
theorem fields_zero_read (env : Env) : (fs : Fields) → FieldsPlain fs = true → FieldsRead env fs fs.zero
  | .nil, _ => trivial
  | .field _ name _ t rest, h => by
    simp only [FieldsPlain, Bool.and_eq_true] at h
    exact ⟨ty_zero_read env t name h.1, fields_zero_read env rest h.2⟩
  | .alts as rest, h => by
    simp only [FieldsPlain, Bool.and_eq_true] at h
    exact ⟨fun x hx => (by cases hx), fields_zero_read env rest h.2⟩
end

theorem inner_zero_read (env : Env) : (t : Ty) → ∀ name, TyPlain false t name = true → InnerRead env t name t.zero
  | .leaf l, _, _ => leaf_zero_read env l
  | .struct (.tag t) fs, name, h => by
    simp only [TyPlain, Bool.and_eq_true] at h
    exact fields_zero_read env fs h.2
  | .struct .none fs, name, h => fields_zero_read env fs h
  | .struct .free fs, name, h => fields_zero_read env fs h
  | .closed _ _ fs, _, h => fields_zero_read env fs h
  | .ptr t, name, _ => fun x hx => by cases hx
  | .slice t, name, _ => fun x hx => by cases hx
  | .msgSets fs, _, _ => fun x hx => by cases hx

theorem onlyChild_xml {cs : List Node} {n : Str} {ch : List Node} (h : onlyChild cs = some (n, ch)) (hc : ∀ c ∈ cs, NodeXml c) :
    ∀ c ∈ ch, NodeXml c := by
  unfold onlyChild at h
  split at h
  · next n' ch' he =>
    cases h
    have : Node.elem n ch ∈ cs.filter (fun c => !isBlank c) := by rw [he]; exact List.mem_singleton.mpr rfl
    exact (hc _ (List.mem_filter.mp this).1).children
  · cases h

mutual
theorem ty_dec_read (env : Env) : (t : Ty) → ∀ (name : Str) (v v' : t.Den) (cs : List Node), TyPlain false t name = true →
    InnerRead env t name v → (∀ c ∈ cs, NodeXml c) → t.dec env v name cs = .ok v' → TyRead env t name v'
  | .leaf l, name, v, v', cs, _, _, hc, h => leaf_parse_read env l _ v' (leafText_xml cs hc) h
  | .struct xn fs, name, v, v', cs, hp, hv, hc, h => by
    have hfs : FieldsPlain fs = true := by
      cases xn with
      | none => exact hp
      | tag t => simp only [TyPlain, Bool.and_eq_true] at hp; exact hp.2
      | free => exact hp
    replace h : (if xn.check name = true then
      (match runEvents false (fun v p n c => fs.dec env v p n c) v.2 (fs.eventsL [] cs) with
      | .ok v' => Except.ok (xn.set name, v')
      | .error e => .error e)
      else .error "expected element type") = Except.ok v' := h
    by_cases hx : xn.check name = true
    · rw [if_pos hx] at h
      cases hr : runEvents false (fun v p n c => fs.dec env v p n c) v.2 (fs.eventsL [] cs) with
      | error e => rw [hr] at h; cases h
      | ok w =>
        rw [hr] at h
        cases h
        refine ⟨?_, runEvents_inv (P := FieldsRead env fs)
          (fun v p n cs v' h1 h2 h3 => fields_dec_read env fs v v' p n cs hfs h1 h2 h3) _ _ _ (eventsL_xml fs cs [] hc) hv hr⟩
        cases xn with
        | none => trivial
        | tag t => exact beq_iff_eq.mp hx
        | free => exact .inr rfl
    · rw [if_neg hx] at h; cases h
  | .closed _ _ fs, name, v, v', cs, hp, hv, hc, h =>
    runEvents_inv (P := FieldsRead env fs)
      (fun v p n cs v' h1 h2 h3 => fields_dec_read env fs v v' p n cs hp h1 h2 h3) _ _ _ (eventsL_xml fs cs [] hc) hv h
  | .ptr t, name, v, v', cs, hp, hv, hc, h => by
    replace h : (match t.dec env ((show Option t.Den from v).getD t.zero) name cs with
      | .ok x => Except.ok (some x)
      | .error e => .error e) = Except.ok v' := h
    change Option t.Den at v
    cases hd : t.dec env (v.getD t.zero) name cs with
    | error e => erw [hd] at h; cases h
    | ok x =>
      erw [hd] at h
      cases h
      have hi : InnerRead env t name (v.getD t.zero) := by
        cases v with
        | none => exact inner_zero_read env t name hp
        | some y => exact inner_of_read env t name y (hv y rfl)
      intro y hy
      cases hy
      exact ty_dec_read env t name _ _ cs hp hi hc hd
  | .slice t, name, v, v', cs, hp, hv, hc, h => by
    replace h : (match t.dec env t.zero name cs with
      | .ok x => Except.ok ((show List t.Den from v) ++ [x])
      | .error e => .error e) = Except.ok v' := h
    cases hd : t.dec env t.zero name cs with
    | error e => rw [hd] at h; cases h
    | ok x =>
      rw [hd] at h
      cases h
      intro y hy
      rcases List.mem_append.mp hy with hy | hy
      · exact hv y hy
      · cases List.mem_singleton.mp hy
        exact ty_dec_read env t name _ _ cs hp (inner_zero_read env t name hp) hc hd
  | .msgSets fs, name, v, v', cs, hp, hv, hc, h => by
    replace h : (match mapE (decMsgSet (fun x => runEvents false (fun v p n c => fs.dec env v p n c) fs.zero (fs.eventsL [] x)))
        (cs.filter (fun c => !isBlank c)) with
      | .ok xs => Except.ok ((show List (Str × Str × fs.Den) from v) ++ xs)
      | .error e => .error e) = Except.ok v' := h
    cases hm : mapE (decMsgSet (fun x => runEvents false (fun v p n c => fs.dec env v p n c) fs.zero (fs.eventsL [] x)))
        (cs.filter (fun c => !isBlank c)) with
    | error e => rw [hm] at h; cases h
    | ok xs =>
      rw [hm] at h
      cases h
      intro y hy
      rcases List.mem_append.mp hy with hy | hy
      · exact hv y hy
      · obtain ⟨node, hn, he⟩ := mapE_mem hm y hy
        have hxml := hc _ (List.mem_filter.mp hn).1
        cases node with
        | text s => cases he
        | misc => cases he
        | elem a ch =>
          unfold decMsgSet at he
          simp only at he
          cases ho : onlyChild ch with
          | none => rw [ho] at he; cases he
          | some w =>
            rw [ho] at he
            simp only at he
            have hch := onlyChild_xml ho hxml.children
            cases hr : runEvents false (fun v p n c => fs.dec env v p n c) fs.zero (fs.eventsL [] w.2) with
            | error e => rw [hr] at he; cases he
            | ok x =>
              rw [hr] at he
              cases he
              exact runEvents_inv (P := FieldsRead env fs)
                (fun v p n cs v' h1 h2 h3 => fields_dec_read env fs v v' p n cs hp h1 h2 h3) _ _ _ (eventsL_xml fs _ [] hch)
                (fields_zero_read env fs hp) hr
theorem fields_dec_read (env : Env) : (fs : Fields) → ∀ (v v' : fs.Den) (p : List Str) (n : Str) (cs : List Node),
    FieldsPlain fs = true → FieldsRead env fs v → (∀ c ∈ cs, NodeXml c) → fs.dec env v p n cs = .ok v' → FieldsRead env fs v'
  | .nil, v, v', p, n, cs, _, hv, _, h => trivial
  | .field path name om t rest, v, v', p, n, cs, hp, hv, hc, h => by
    simp only [FieldsPlain, Bool.and_eq_true] at hp
    replace h : (if (path == p && name == n) = true then
      (match t.dec env v.1 n cs with
      | .ok x => Except.ok (x, v.2)
      | .error e => .error e)
      else
      (match rest.dec env v.2 p n cs with
      | .ok y => Except.ok (v.1, y)
      | .error e => .error e)) = Except.ok v' := h
    by_cases hx : (path == p && name == n) = true
    · rw [if_pos hx] at h
      have hn : name = n := beq_iff_eq.mp ((Bool.and_eq_true _ _).mp hx).2
      subst hn
      cases hd : t.dec env v.1 name cs with
      | error e => rw [hd] at h; cases h
      | ok x =>
        rw [hd] at h
        cases h
        exact ⟨ty_dec_read env t name _ _ cs (plain_weaken t name hp.1) (inner_of_read env t name _ hv.1) hc hd, hv.2⟩
    · rw [if_neg hx] at h
      cases hd : rest.dec env v.2 p n cs with
      | error e => rw [hd] at h; cases h
      | ok x =>
        rw [hd] at h
        cases h
        exact ⟨hv.1, fields_dec_read env rest _ _ p n cs hp.2 hv.2 hc hd⟩
  | .alts as rest, v, v', p, n, cs, hp, hv, hc, h => by
    simp only [FieldsPlain, Bool.and_eq_true] at hp
    replace h : (if (p == [] && as.has n) = true then
      (match as.dec env n cs with
      | .ok x => Except.ok (List.append v.1 [x], v.2)
      | .error e => .error e)
      else
      (match rest.dec env v.2 p n cs with
      | .ok y => Except.ok (v.1, y)
      | .error e => .error e)) = Except.ok v' := h
    by_cases hx : (p == [] && as.has n) = true
    · rw [if_pos hx] at h
      cases hd : as.dec env n cs with
      | error e => rw [hd] at h; cases h
      | ok x =>
        rw [hd] at h
        cases h
        refine ⟨fun y hy => ?_, hv.2⟩
        rcases List.mem_append.mp hy with hy | hy
        · exact hv.1 y hy
        · cases List.mem_singleton.mp hy
          exact alts_dec_read env as n cs _ hp.1 hc hd
    · rw [if_neg hx] at h
      cases hd : rest.dec env v.2 p n cs with
      | error e => rw [hd] at h; cases h
      | ok x =>
        rw [hd] at h
        cases h
        exact ⟨hv.1, fields_dec_read env rest _ _ p n cs hp.2 hv.2 hc hd⟩
theorem alts_dec_read (env : Env) : (as : Alts) → ∀ (n : Str) (cs : List Node) (v' : as.Den), AltsPlain as = true →
    (∀ c ∈ cs, NodeXml c) → as.dec env n cs = .ok v' → AltsRead env as v'
  | .nil, _, _, v', _, _, _ => trivial
  | .alt dec enc t rest, n, cs, v', hp, hc, h => by
    simp only [AltsPlain, Bool.and_eq_true] at hp
    replace h : (if (n == dec) = true then
      (match t.dec env t.zero n cs with
      | .ok x => Except.ok (Sum.inl x)
      | .error e => .error e)
      else
      (match rest.dec env n cs with
      | .ok x => Except.ok (Sum.inr x)
      | .error e => .error e)) = Except.ok v' := h
    by_cases hx : (n == dec) = true
    · rw [if_pos hx] at h
      have hn : n = dec := beq_iff_eq.mp hx
      subst hn
      cases hd : t.dec env t.zero n cs with
      | error e => rw [hd] at h; cases h
      | ok x =>
        rw [hd] at h
        cases h
        exact ty_dec_read env t n _ _ cs hp.1 (inner_zero_read env t n hp.1) hc hd
    · rw [if_neg hx] at h
      cases hd : rest.dec env n cs with
      | error e => rw [hd] at h; cases h
      | ok x =>
        rw [hd] at h
        cases h
        exact alts_dec_read env rest n cs _ hp.2 hc hd
end

end Ofx
