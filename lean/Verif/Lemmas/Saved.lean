import Verif.Lemmas.Read
import Verif.Lemmas.TextCheck
/-
Decoded values whose amounts and dates can be kept are written without loss, and the same
values are written as the same elements.
-/
namespace Ofx
open Spec

mutual
/-- Enumerations are those of constants.go, untagged structures occur under possible names, and
interface elements are read and written under one name. -/
def TySound : Ty → Str → Bool
  | .leaf (.enum t), _ => decide (t ∈ allEnums)
  | .leaf _, _ => true
  | .struct .free fs, name => containerB name && FieldsSound fs
  | .struct (.tag _) fs, _ => FieldsSound fs
  | .struct .none fs, _ => FieldsSound fs
  | .closed _ _ fs, _ => FieldsSound fs
  | .ptr t, name => TySound t name
  | .slice t, name => TySound t name
  | .msgSets fs, _ => FieldsSound fs
def FieldsSound : Fields → Bool
  | .nil => true
  | .field _ name _ t rest => TySound t name && FieldsSound rest
  | .alts as rest => AltsSound as && FieldsSound rest
def AltsSound : Alts → Bool
  | .nil => true
  | .alt dec enc t rest => dec == enc && TySound t dec && AltsSound rest
end

theorem zone_xml {t : GoTime} (h : ExactDate t) : AllXml t.zone := by
  obtain ⟨-, -, -, -, -, -, h, -⟩ := h
  rcases h with h | h
  · rw [h]; exact .nil
  · intro c hc
    have := (isCapital_iff c).mp (h.1 c hc)
    simp only [isUpper, Bool.and_eq_true, decide_eq_true_eq] at this
    right; right; right; left
    omega

theorem code_xml {env : Env} {v : CurrSymbol} (h : v = CurrSymbol.zero ∨ ∃ text, @CurrSymbol.unmarshal env.curr text = .ok v) :
    AllXml v.code := by
  rcases h with rfl | ⟨text, h⟩
  · exact .cons (by decide) (.cons (by decide) (.cons (by decide) .nil))
  · unfold CurrSymbol.unmarshal at h
    cases hp : @parseISO env.curr (trimSpace text) with
    | none => rw [hp] at h; cases h
    | some c =>
      rw [hp] at h
      cases h
      obtain ⟨⟨-, h1, h2⟩, -⟩ := (@parseISO_iff env.curr _ _).mp hp
      rw [h2]
      intro x hx
      obtain ⟨y, hy, rfl⟩ := List.mem_map.mp hx
      have := toUpper_alpha (h1 y hy)
      right; right; right; left
      omega

theorem leaf_read_exact (env : Env) {D : GoTime → Prop} (hD : ∀ t, D t → ExactDate t) : (l : Leaf) → ∀ name, ∀ v : l.Den,
    TySound (.leaf l) name = true → LeafRead env l v → LeafKept D l v → LeafExact env l v ∧ LeafText l v
  | .str, _, _, _, h, _ => ⟨h.1, h.2⟩
  | .uid, _, _, _, h, _ => ⟨h.1, h.2⟩
  | .int, _, _, _, h, _ => ⟨h, trivial⟩
  | .bool, _, _, _, _, _ => ⟨trivial, trivial⟩
  | .amount, _, _, _, _, h => ⟨h, trivial⟩
  | .date, _, _, _, _, h => ⟨hD _ h, zone_xml (hD _ h)⟩
  | .curr, _, _, _, h, _ => ⟨h, code_xml h⟩
  | .enum t, _, _, hs, h, _ => by
    have ht : t ∈ allEnums := by
      simp only [TySound, decide_eq_true_eq] at hs
      exact hs
    exact ⟨⟨ht, h ht⟩, trivial⟩

mutual
theorem ty_read_exact (env : Env) {D : GoTime → Prop} (hD : ∀ t, D t → ExactDate t) : (t : Ty) → ∀ (name : Str) (v : t.Den),
    TySound t name = true → TyRead env t name v → TyKept D t v → TyExact env t name v ∧ TyText t v
  | .leaf l, name, v, hs, h, hk => leaf_read_exact env hD l name v hs h hk
  | .struct .none fs, name, v, hs, h, hk =>
    have g := fields_read_exact env hD fs v.2 hs h.2 hk
    ⟨⟨trivial, g.1⟩, ⟨trivial, g.2⟩⟩
  | .struct (.tag t) fs, name, v, hs, h, hk =>
    have g := fields_read_exact env hD fs v.2 hs h.2 hk
    ⟨⟨h.1, g.1⟩, ⟨trivial, g.2⟩⟩
  | .struct .free fs, name, v, hs, h, hk => by
    simp only [TySound, Bool.and_eq_true] at hs
    have g := fields_read_exact env hD fs v.2 hs.2 h.2 hk
    refine ⟨⟨h.1, g.1⟩, ⟨?_, g.2⟩⟩
    rcases (show (show Str from v.1) = [] ∨ (show Str from v.1) = name from h.1) with h1 | h1
    · exact .inl h1
    · exact .inr (by rw [show v.1 = name from h1]; exact (containerB_iff _).mp hs.1)
  | .closed _ _ fs, _, v, hs, h, hk => fields_read_exact env hD fs v hs h hk
  | .ptr t, name, v, hs, h, hk =>
    ⟨fun x hx => (ty_read_exact env hD t name x hs (h x hx) (hk x hx)).1,
     fun x hx => (ty_read_exact env hD t name x hs (h x hx) (hk x hx)).2⟩
  | .slice t, name, v, hs, h, hk =>
    ⟨fun x hx => (ty_read_exact env hD t name x hs (h x hx) (hk x hx)).1,
     fun x hx => (ty_read_exact env hD t name x hs (h x hx) (hk x hx)).2⟩
  | .msgSets fs, _, v, hs, h, hk => by
    refine ⟨fun x hx => ?_, fun x hx => ?_⟩
    · obtain ⟨⟨short, h1, h2, h3⟩, h4⟩ := hk x hx
      refine ⟨⟨short, ?_, h1⟩, (fields_read_exact env hD fs _ hs (h x hx) h4).1⟩
      obtain ⟨⟨c, cs, rfl, -⟩, -⟩ := h2.1
      intro h; cases h
    · obtain ⟨⟨short, h1, h2, h3⟩, h4⟩ := hk x hx
      refine ⟨h3, fun s hs' => ?_, (fields_read_exact env hD fs _ hs (h x hx) h4).2⟩
      rw [h1] at hs'
      rw [← List.append_cancel_right hs']
      exact h2
theorem fields_read_exact (env : Env) {D : GoTime → Prop} (hD : ∀ t, D t → ExactDate t) : (fs : Fields) → ∀ v : fs.Den,
    FieldsSound fs = true → FieldsRead env fs v → FieldsKept D fs v → FieldsExact env fs v ∧ FieldsText fs v
  | .nil, _, _, _, _ => ⟨trivial, trivial⟩
  | .field _ name _ t rest, v, hs, h, hk => by
    simp only [FieldsSound, Bool.and_eq_true] at hs
    have a := ty_read_exact env hD t name v.1 hs.1 h.1 hk.1
    have b := fields_read_exact env hD rest v.2 hs.2 h.2 hk.2
    exact ⟨⟨a.1, b.1⟩, ⟨a.2, b.2⟩⟩
  | .alts as rest, v, hs, h, hk => by
    simp only [FieldsSound, Bool.and_eq_true] at hs
    have a := fun x hx => alts_read_exact env hD as x hs.1 (h.1 x hx) (hk.1 x hx)
    have b := fields_read_exact env hD rest v.2 hs.2 h.2 hk.2
    exact ⟨⟨fun x hx => (a x hx).1, b.1⟩, ⟨fun x hx => (a x hx).2, b.2⟩⟩
theorem alts_read_exact (env : Env) {D : GoTime → Prop} (hD : ∀ t, D t → ExactDate t) : (as : Alts) → ∀ v : as.Den,
    AltsSound as = true → AltsRead env as v → AltsKept D as v → AltsExact env as v ∧ AltsText as v
  | .nil, _, _, _, _ => ⟨trivial, trivial⟩
  | .alt dec enc t rest, v, hs, h, hk => by
    simp only [AltsSound, Bool.and_eq_true] at hs
    change t.Den ⊕ rest.Den at v
    cases v with
    | inl x => exact ty_read_exact env hD t dec x hs.1.2 h hk
    | inr y => exact alts_read_exact env hD rest y hs.2 h hk
end

/-! ### Writing the same values -/

theorem mapE_same {α β : Type} {f : α → Except String β} {R : α → α → Prop} {l l' : List α} (h : List.Forall₂ R l l')
    (hf : ∀ x ∈ l, ∀ y, R x y → f y = f x) : mapE f l' = mapE f l := by
  induction h with
  | nil => rfl
  | cons hr _ ih =>
    rw [mapE, mapE, hf _ (List.mem_cons_self ..) _ hr, ih (fun x hx => hf x (List.mem_cons_of_mem _ hx))]

theorem isEmpty_same {α : Type} {R : α → α → Prop} {l l' : List α} (h : List.Forall₂ R l l') : l'.isEmpty = l.isEmpty := by
  cases h <;> rfl

theorem fields_isEmpty_same : (fs : Fields) → ∀ v v' : fs.Den, FieldsSame fs v v' → fs.isEmpty v' = fs.isEmpty v
  | .nil, _, _, _ => rfl
  | .field _ _ _ _ _, _, _, _ => rfl
  | .alts as rest, v, v', h => by
    show (List.isEmpty v'.1 && rest.isEmpty v'.2) = (List.isEmpty v.1 && rest.isEmpty v.2)
    rw [isEmpty_same h.1, fields_isEmpty_same rest _ _ h.2]

theorem opens_same : (t : Ty) → ∀ name v v', TySame t name v v' → t.opens v' = t.opens v
  | .ptr t, name, v, v', h => by
    change Option t.Den at v v'
    cases v <;> cases v'
    · rfl
    · exact (show False from h).elim
    · exact (show False from h).elim
    · rfl
  | .leaf _, _, _, _, _ => rfl
  | .struct _ _, _, _, _, _ => rfl
  | .closed _ _ _, _, _, _, _ => rfl
  | .slice _, _, _, _, _ => rfl
  | .msgSets _, _, _, _, _ => rfl

theorem kept_settled {D : GoTime → Prop} (hD : ∀ t, D t → t.zone ≠ []) : (l : Leaf) → ∀ v : l.Den, LeafKept D l v → LeafSettled l v
  | .date, _, h => hD _ h
  | .str, _, _ => trivial
  | .uid, _, _ => trivial
  | .int, _, _ => trivial
  | .bool, _, _ => trivial
  | .amount, _, _ => trivial
  | .curr, _, _ => trivial
  | .enum _, _, _ => trivial

mutual
theorem ty_enc_same (env : Env) {D : GoTime → Prop} (hD : ∀ t, D t → t.zone ≠ []) : (t : Ty) → ∀ (name : Str) (om : Bool) (v v' : t.Den),
    TySound t name = true → TyExact env t name v → TyKept D t v → TySame t name v v' → t.enc name om v' = t.enc name om v
  | .leaf l, name, om, v, v', _, _, hk, h => by rw [settled_leaf l v v' h (kept_settled hD l v hk)]
  | .struct xn fs, name, om, v, v', hs, he, hk, h => by
    have hfs : FieldsSound fs = true := by
      cases xn with
      | none => exact hs
      | tag t => exact hs
      | free => simp only [TySound, Bool.and_eq_true] at hs; exact hs.2
    have h1 := fields_enc_same env hD fs v.2 v'.2 hfs he.2 hk h.2
    have h2 : xn.encName name v'.1 = xn.encName name v.1 := by
      cases xn with
      | none => rfl
      | tag t => rfl
      | free =>
        have h3 : v'.1 = name := h.1
        rcases (show (show Str from v.1) = [] ∨ (show Str from v.1) = name from he.1) with h4 | h4
        · show (if (show Str from v'.1) = [] then name else v'.1) = (if (show Str from v.1) = [] then name else v.1)
          rw [if_pos h4, h3]
          by_cases hn : name = []
          · erw [if_pos hn]
          · erw [if_neg hn]
        · rw [h3, show v.1 = name from h4]
    show (match fs.enc v'.2 with
      | .ok items => Except.ok [Node.elem (xn.encName name v'.1) (emit fs.depth items)]
      | .error e => .error e) = (match fs.enc v.2 with
      | .ok items => Except.ok [Node.elem (xn.encName name v.1) (emit fs.depth items)]
      | .error e => .error e)
    rw [h1, h2]
  | .closed lit gs fs, name, om, v, v', hs, he, hk, h => by
    show (if (om && gs && fs.isEmpty v') = true then Except.ok [] else match fs.enc v' with
      | .ok items => Except.ok [Node.elem lit (emit fs.depth items)]
      | .error e => .error e) = (if (om && gs && fs.isEmpty v) = true then Except.ok [] else match fs.enc v with
      | .ok items => Except.ok [Node.elem lit (emit fs.depth items)]
      | .error e => .error e)
    rw [fields_isEmpty_same fs _ _ h, fields_enc_same env hD fs v v' hs he hk h]
  | .ptr t, name, om, v, v', hs, he, hk, h => by
    change Option t.Den at v v'
    cases v with
    | none =>
      cases v' with
      | none => rfl
      | some y => exact (show False from h).elim
    | some x =>
      cases v' with
      | none => exact (show False from h).elim
      | some y => exact ty_enc_same env hD t name false x y hs (he x rfl) (hk x rfl) h
  | .slice t, name, om, v, v', hs, he, hk, h => by
    change List t.Den at v v'
    have hm := mapE_same (f := fun x => t.enc name om x) (show List.Forall₂ (TySame t name) v v' from h)
      (fun x hx y hxy => ty_enc_same env hD t name om x y hs (he x hx) (hk x hx) hxy)
    show (match mapE (fun x => t.enc name om x) v' with
      | .ok nss => Except.ok nss.flatten
      | .error e => .error e) = (match mapE (fun x => t.enc name om x) v with
      | .ok nss => Except.ok nss.flatten
      | .error e => .error e)
    rw [hm]
  | .msgSets fs, name, om, v, v', hs, he, hk, h => by
    change List (Str × Str × fs.Den) at v v'
    have hm := mapE_same (f := encMsgSet (fun y => fs.enc y) fs.depth)
      (show List.Forall₂ (fun (a b : Str × Str × fs.Den) => b.1 = a.2.1 ∧ b.2.1 = a.2.1 ∧ FieldsSame fs a.2.2 b.2.2) v v' from h)
      (fun x hx y hxy => by
        have := fields_enc_same env hD fs _ _ hs (he x hx).2 (hk x hx).2 hxy.2.2
        unfold encMsgSet
        simp only
        rw [hxy.2.1, this])
    show (if (om && List.isEmpty v') = true then Except.ok [] else
      match mapE (encMsgSet (fun y => fs.enc y) fs.depth) v' with
      | .ok ns => Except.ok [Node.elem "MSGSETLIST".toList ns]
      | .error e => .error e) = (if (om && List.isEmpty v) = true then Except.ok [] else
      match mapE (encMsgSet (fun y => fs.enc y) fs.depth) v with
      | .ok ns => Except.ok [Node.elem "MSGSETLIST".toList ns]
      | .error e => .error e)
    rw [hm, isEmpty_same h]
theorem fields_enc_same (env : Env) {D : GoTime → Prop} (hD : ∀ t, D t → t.zone ≠ []) : (fs : Fields) → ∀ v v' : fs.Den,
    FieldsSound fs = true → FieldsExact env fs v → FieldsKept D fs v → FieldsSame fs v v' → fs.enc v' = fs.enc v
  | .nil, _, _, _, _, _, _ => rfl
  | .field path name om t rest, v, v', hs, he, hk, h => by
    simp only [FieldsSound, Bool.and_eq_true] at hs
    show (match t.enc name om v'.1 with
      | .error e => Except.error e
      | .ok ns =>
        match rest.enc v'.2 with
        | .ok items => Except.ok ((⟨path, t.opens v'.1, ns⟩ : Item) :: items)
        | .error e => .error e) = (match t.enc name om v.1 with
      | .error e => Except.error e
      | .ok ns =>
        match rest.enc v.2 with
        | .ok items => Except.ok ((⟨path, t.opens v.1, ns⟩ : Item) :: items)
        | .error e => .error e)
    rw [ty_enc_same env hD t name om v.1 v'.1 hs.1 he.1 hk.1 h.1, fields_enc_same env hD rest v.2 v'.2 hs.2 he.2 hk.2 h.2,
      opens_same t name _ _ h.1]
  | .alts as rest, v, v', hs, he, hk, h => by
    simp only [FieldsSound, Bool.and_eq_true] at hs
    have hm := mapE_same (f := fun x => as.enc x) h.1
      (fun x hx y hxy => alts_enc_same env hD as x y hs.1 (he.1 x hx) (hk.1 x hx) hxy)
    show (match mapE (fun x => as.enc x) v'.1 with
      | .error e => Except.error e
      | .ok nss =>
        match rest.enc v'.2 with
        | .ok items => Except.ok ((⟨[], true, nss.flatten⟩ : Item) :: items)
        | .error e => .error e) = (match mapE (fun x => as.enc x) v.1 with
      | .error e => Except.error e
      | .ok nss =>
        match rest.enc v.2 with
        | .ok items => Except.ok ((⟨[], true, nss.flatten⟩ : Item) :: items)
        | .error e => .error e)
    erw [hm, fields_enc_same env hD rest v.2 v'.2 hs.2 he.2 hk.2 h.2]
theorem alts_enc_same (env : Env) {D : GoTime → Prop} (hD : ∀ t, D t → t.zone ≠ []) : (as : Alts) → ∀ v v' : as.Den,
    AltsSound as = true → AltsExact env as v → AltsKept D as v → AltsSame as v v' → as.enc v' = as.enc v
  | .nil, v, _, _, _, _, _ => (show Empty from v).elim
  | .alt dec enc t rest, v, v', hs, he, hk, h => by
    simp only [AltsSound, Bool.and_eq_true, beq_iff_eq] at hs
    obtain ⟨⟨rfl, hs1⟩, hs2⟩ := hs
    change t.Den ⊕ rest.Den at v v'
    rcases v with x | x <;> rcases v' with y | y
    · show (match t.enc dec false y with
        | .ok ns => Except.ok (ns.map (Node.rename dec))
        | .error e => .error e) = (match t.enc dec false x with
        | .ok ns => Except.ok (ns.map (Node.rename dec))
        | .error e => .error e)
      rw [ty_enc_same env hD t dec false x y hs1 he hk h]
    · exact (show False from h).elim
    · exact (show False from h).elim
    · exact alts_enc_same env hD rest x y hs2 he hk h
end

/-- Dates as decoding makes them: OFX can express them and they name their zone. -/
abbrev NamedDate (t : GoTime) : Prop := ExactDate t ∧ t.zone ≠ []

theorem leaf_exact_kept (env : Env) : (l : Leaf) → ∀ v : l.Den, LeafExact env l v → LeafSettled l v → LeafKept NamedDate l v
  | .amount, _, h, _ => h
  | .date, _, h, hz => ⟨h, hz⟩
  | .str, _, _, _ => trivial
  | .uid, _, _, _ => trivial
  | .int, _, _, _ => trivial
  | .bool, _, _, _ => trivial
  | .curr, _, _, _ => trivial
  | .enum _, _, _, _ => trivial

mutual
/-- Values that a document can carry are kept. -/
theorem ty_exact_kept (env : Env) : (t : Ty) → ∀ (name : Str) (v : t.Den), TyExact env t name v → TyText t v → TySettled t name v →
    TyKept NamedDate t v
  | .leaf l, _, v, h, _, hz => leaf_exact_kept env l v h hz
  | .struct _ fs, _, v, h, ht, hz => fields_exact_kept env fs v.2 h.2 ht.2 hz.2
  | .closed _ _ fs, _, v, h, ht, hz => fields_exact_kept env fs v h ht hz
  | .ptr t, name, v, h, ht, hz => fun x hx => ty_exact_kept env t name x (h x hx) (ht x hx) (hz x hx)
  | .slice t, name, v, h, ht, hz => fun x hx => ty_exact_kept env t name x (h x hx) (ht x hx) (hz x hx)
  | .msgSets fs, _, v, h, ht, hz => fun x hx =>
    have ⟨short, _, hs⟩ := (h x hx).1
    ⟨⟨short, hs, (ht x hx).2.1 short hs, (ht x hx).1⟩, fields_exact_kept env fs x.2.2 (h x hx).2 (ht x hx).2.2 (hz x hx).2⟩
theorem fields_exact_kept (env : Env) : (fs : Fields) → ∀ v : fs.Den, FieldsExact env fs v → FieldsText fs v → FieldsSettled fs v →
    FieldsKept NamedDate fs v
  | .nil, _, _, _, _ => trivial
  | .field _ name _ t rest, v, h, ht, hz =>
    ⟨ty_exact_kept env t name v.1 h.1 ht.1 hz.1, fields_exact_kept env rest v.2 h.2 ht.2 hz.2⟩
  | .alts as rest, v, h, ht, hz =>
    ⟨fun x hx => alts_exact_kept env as x (h.1 x hx) (ht.1 x hx) (hz.1 x hx), fields_exact_kept env rest v.2 h.2 ht.2 hz.2⟩
theorem alts_exact_kept (env : Env) : (as : Alts) → ∀ v : as.Den, AltsExact env as v → AltsText as v → AltsSettled as v →
    AltsKept NamedDate as v
  | .nil, _, _, _, _ => trivial
  | .alt dec _ t rest, v, h, ht, hz => by
    change t.Den ⊕ rest.Den at v
    cases v with
    | inl x => exact ty_exact_kept env t dec x h ht hz
    | inr y => exact alts_exact_kept env rest y h ht hz
end

theorem leaf_kept_weaken {D E : GoTime → Prop} (h : ∀ t, D t → E t) : (l : Leaf) → ∀ v : l.Den, LeafKept D l v → LeafKept E l v
  | .amount, _, hk => hk
  | .date, v, hk => h v hk
  | .str, _, _ => trivial
  | .uid, _, _ => trivial
  | .int, _, _ => trivial
  | .bool, _, _ => trivial
  | .curr, _, _ => trivial
  | .enum _, _, _ => trivial

mutual
theorem ty_kept_weaken {D E : GoTime → Prop} (h : ∀ t, D t → E t) : (t : Ty) → ∀ v : t.Den, TyKept D t v → TyKept E t v
  | .leaf l, v, hk => leaf_kept_weaken h l v hk
  | .struct _ fs, v, hk => fields_kept_weaken h fs v.2 hk
  | .closed _ _ fs, v, hk => fields_kept_weaken h fs v hk
  | .ptr t, _, hk => fun x hx => ty_kept_weaken h t x (hk x hx)
  | .slice t, _, hk => fun x hx => ty_kept_weaken h t x (hk x hx)
  | .msgSets fs, _, hk => fun x hx => ⟨(hk x hx).1, fields_kept_weaken h fs x.2.2 (hk x hx).2⟩
theorem fields_kept_weaken {D E : GoTime → Prop} (h : ∀ t, D t → E t) : (fs : Fields) → ∀ v : fs.Den, FieldsKept D fs v → FieldsKept E fs v
  | .nil, _, _ => trivial
  | .field _ _ _ t rest, v, hk => ⟨ty_kept_weaken h t v.1 hk.1, fields_kept_weaken h rest v.2 hk.2⟩
  | .alts as rest, v, hk => ⟨fun x hx => alts_kept_weaken h as x (hk.1 x hx), fields_kept_weaken h rest v.2 hk.2⟩
theorem alts_kept_weaken {D E : GoTime → Prop} (h : ∀ t, D t → E t) : (as : Alts) → ∀ v : as.Den, AltsKept D as v → AltsKept E as v
  | .nil, _, _ => trivial
  | .alt _ _ t rest, v, hk => by
    change t.Den ⊕ rest.Den at v
    cases v with
    | inl x => exact ty_kept_weaken h t x hk
    | inr y => exact alts_kept_weaken h rest y hk
end

end Ofx
