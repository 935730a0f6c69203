import Verif.Lemmas.CodecMain
/-
When encoding succeeds: exactly when every message set inside has a name ending in V1.
-/
namespace Ofx

mutual
/-- Every message set inside the value has a name ending in V1. -/
def TyV1 : (t : Ty) → t.Den → Prop
  | .leaf _, _ => True
  | .struct _ fs, v => FieldsV1 fs v.2
  | .closed _ _ fs, v => FieldsV1 fs v
  | .ptr t, v => ∀ x ∈ (show Option t.Den from v), TyV1 t x
  | .slice t, v => ∀ x ∈ (show List t.Den from v), TyV1 t x
  | .msgSets fs, v => ∀ x ∈ (show List (Str × Str × fs.Den) from v),
      (∃ short, short ≠ [] ∧ x.2.1 = short ++ "V1".toList) ∧ FieldsV1 fs x.2.2
def FieldsV1 : (fs : Fields) → fs.Den → Prop
  | .nil, _ => True
  | .field _ _ _ t rest, v => TyV1 t v.1 ∧ FieldsV1 rest v.2
  | .alts as rest, v => (∀ x ∈ (show List as.Den from v.1), AltsV1 as x) ∧ FieldsV1 rest v.2
def AltsV1 : (as : Alts) → as.Den → Prop
  | .nil, _ => True
  | .alt _ _ t rest, v =>
    match (show t.Den ⊕ rest.Den from v) with
    | .inl x => TyV1 t x
    | .inr y => AltsV1 rest y
end

theorem trimV1_iff (s : Str) : (∃ short, trimV1 s = some short) ↔ ∃ short, short ≠ [] ∧ s = short ++ "V1".toList := by
  unfold trimV1
  by_cases h : "V1".toList.isSuffixOf s = true ∧ 2 < s.length
  · rw [if_pos h]
    simp only [Option.some.injEq, exists_eq', true_iff]
    obtain ⟨t, ht⟩ := List.isSuffixOf_iff_suffix.mp h.1
    refine ⟨t, ?_, ht.symm⟩
    rintro rfl
    have := h.2
    rw [← ht] at this
    exact absurd this (by decide)
  · rw [if_neg h]
    constructor
    · rintro ⟨_, h⟩; cases h
    · rintro ⟨t, h1, rfl⟩
      have := List.length_pos_iff.mpr h1
      exact absurd ⟨List.isSuffixOf_iff_suffix.mpr ⟨t, rfl⟩, by simp; omega⟩ h

theorem mapE_ok_iff {α β : Type} (f : α → Except String β) (l : List α) :
    (∃ ys, mapE f l = .ok ys) ↔ ∀ x ∈ l, ∃ y, f x = .ok y := by
  induction l with
  | nil => simp [mapE]
  | cons a l ih =>
    simp only [mapE, List.mem_cons, forall_eq_or_imp]
    cases hf : f a with
    | error e => simp
    | ok y =>
      simp only [Except.ok.injEq, exists_eq', true_and]
      rw [← ih]
      cases mapE f l <;> simp

mutual
theorem Ty.enc_ok : (t : Ty) → ∀ (name : Str) (om : Bool) (v : t.Den),
    (om = false → ((∃ ns, t.enc name om v = .ok ns) ↔ TyV1 t v)) ∧ (TyV1 t v → ∃ ns, t.enc name om v = .ok ns)
      ∧ ((∃ ns, t.enc name om v = .ok ns) → TyV1 t v)
  | .leaf l, name, om, v => by
    have : ∃ ns, (Ty.leaf l).enc name om v = .ok ns := by
      simp only [Ty.enc]
      split
      · exact ⟨_, rfl⟩
      · split <;> exact ⟨_, rfl⟩
    have hv : TyV1 (.leaf l) v := by simp only [TyV1]
    exact ⟨fun _ => ⟨fun _ => hv, fun _ => this⟩, fun _ => this, fun _ => hv⟩
  | .struct xn fs, name, om, v => by
    have h := fs.enc_ok v.2
    have : (∃ ns, (Ty.struct xn fs).enc name om v = .ok ns) ↔ TyV1 (.struct xn fs) v := by
      simp only [Ty.enc, TyV1]
      rw [← h]
      cases fs.enc v.2 <;> simp
    exact ⟨fun _ => this, this.mpr, this.mp⟩
  | .closed lit gs fs, name, om, v => by
    have h := fs.enc_ok v
    have : (∃ ns, (Ty.closed lit gs fs).enc name om v = .ok ns) ↔ TyV1 (.closed lit gs fs) v := by
      simp only [Ty.enc, TyV1]
      by_cases hc : (om && gs && fs.isEmpty v) = true
      · rw [if_pos hc]
        simp only [Except.ok.injEq, exists_eq', true_iff]
        simp only [Bool.and_eq_true] at hc
        exact isEmpty_V1 fs v hc.2
      · rw [if_neg hc, ← h]
        cases fs.enc v <;> simp
    exact ⟨fun _ => this, this.mpr, this.mp⟩
  | .ptr t, name, om, v => by
    have h := fun x => t.enc_ok name false x
    have : (∃ ns, (Ty.ptr t).enc name om v = .ok ns) ↔ TyV1 (.ptr t) v := by
      simp only [Ty.enc, TyV1]
      change Option t.Den at v
      cases v with
      | none => simp
      | some x =>
        constructor
        · rintro ⟨ns, hn⟩ y hy
          cases hy
          exact (h x).2.2 ⟨ns, hn⟩
        · intro hy
          exact (h x).2.1 (hy x rfl)
    exact ⟨fun _ => this, this.mpr, this.mp⟩
  | .slice t, name, om, v => by
    have h := fun x => t.enc_ok name om x
    have : (∃ ns, (Ty.slice t).enc name om v = .ok ns) ↔ TyV1 (.slice t) v := by
      simp only [Ty.enc, TyV1]
      have hm := mapE_ok_iff (fun x => t.enc name om x) (show List t.Den from v)
      constructor
      · intro hn x hx
        have : ∃ ys, mapE (fun x => t.enc name om x) (show List t.Den from v) = .ok ys := by
          obtain ⟨ns, hn⟩ := hn
          cases hq : mapE (fun x => t.enc name om x) (show List t.Den from v) with
          | ok ys => exact ⟨ys, rfl⟩
          | error e => rw [hq] at hn; cases hn
        exact (h x).2.2 (hm.mp this x hx)
      · intro hy
        obtain ⟨ys, e⟩ := hm.mpr (fun x hx => (h x).2.1 (hy x hx))
        rw [e]; exact ⟨_, rfl⟩
    exact ⟨fun _ => this, this.mpr, this.mp⟩
  | .msgSets fs, name, om, v => by
    have h := fun x => fs.enc_ok x
    have : (∃ ns, (Ty.msgSets fs).enc name om v = .ok ns) ↔ TyV1 (.msgSets fs) v := by
      simp only [Ty.enc, TyV1]
      change List (Str × Str × fs.Den) at v
      have hm := mapE_ok_iff (encMsgSet (fun y => fs.enc y) fs.depth) v
      have he : ∀ x : Str × Str × fs.Den, (∃ n, encMsgSet (fun y => fs.enc y) fs.depth x = .ok n) ↔
          (∃ short, short ≠ [] ∧ x.2.1 = short ++ "V1".toList) ∧ FieldsV1 fs x.2.2 := by
        intro x
        rw [← trimV1_iff, ← h]
        unfold encMsgSet
        cases trimV1 x.2.1 with
        | none => simp
        | some s =>
          simp only
          cases hq : fs.enc x.2.2 <;> simp [hq]
      by_cases hc : (om && List.isEmpty v) = true
      · simp only [Bool.and_eq_true, List.isEmpty_iff] at hc
        obtain ⟨hc1, rfl⟩ := hc
        subst hc1
        simp
      · constructor
        · rintro ⟨ns, hn⟩ x hx
          erw [if_neg hc] at hn
          refine (he x).mp (hm.mp ?_ x hx)
          cases hq : mapE (encMsgSet (fun y => fs.enc y) fs.depth) v with
          | ok ys => exact ⟨ys, rfl⟩
          | error e => erw [hq] at hn; cases hn
        · intro hy
          obtain ⟨ys, e⟩ := hm.mpr (fun x hx => (he x).mpr (hy x hx))
          refine ⟨[.elem "MSGSETLIST".toList ys], ?_⟩
          erw [if_neg hc, e]
    exact ⟨fun _ => this, this.mpr, this.mp⟩
theorem Fields.enc_ok : (fs : Fields) → ∀ v : fs.Den, (∃ items, fs.enc v = .ok items) ↔ FieldsV1 fs v
  | .nil, v => by simp [Fields.enc, FieldsV1]
  | .field path name om t rest, v => by
    have h1 := t.enc_ok name om v.1
    have h1' : (∃ ns, t.enc name om v.1 = .ok ns) ↔ TyV1 t v.1 := ⟨h1.2.2, h1.2.1⟩
    have h2 := rest.enc_ok v.2
    simp only [Fields.enc, FieldsV1]
    rw [← h1', ← h2]
    cases t.enc name om v.1 with
    | error e => simp
    | ok ns => cases rest.enc v.2 <;> simp
  | .alts as rest, v => by
    have h1 := fun x => as.enc_ok x
    have h2 := rest.enc_ok v.2
    simp only [Fields.enc, FieldsV1]
    have hm := mapE_ok_iff (fun x => as.enc x) (show List as.Den from v.1)
    have h1' : (∃ ns, mapE (fun x => as.enc x) (show List as.Den from v.1) = .ok ns) ↔
        ∀ x ∈ (show List as.Den from v.1), AltsV1 as x :=
      hm.trans ⟨fun h x hx => (h1 x).mp (h x hx), fun h x hx => (h1 x).mpr (h x hx)⟩
    rw [← h1', ← h2]
    constructor
    · rintro ⟨items, hi⟩
      cases hq : mapE (fun x => as.enc x) (show List as.Den from v.1) with
      | error e => rw [hq] at hi; cases hi
      | ok nss =>
        rw [hq] at hi
        refine ⟨⟨_, rfl⟩, ?_⟩
        cases hr : rest.enc v.2 with
        | ok y => exact ⟨_, rfl⟩
        | error e => simp only [hr] at hi; cases hi
    · rintro ⟨⟨a, ha⟩, b, hb⟩
      rw [ha]
      simp only [hb]
      exact ⟨_, rfl⟩
theorem Alts.enc_ok : (as : Alts) → ∀ v : as.Den, (∃ ns, as.enc v = .ok ns) ↔ AltsV1 as v
  | .nil, v => (show Empty from v).elim
  | .alt dec enc t rest, v => by
    simp only [Alts.enc, AltsV1]
    change t.Den ⊕ rest.Den at v
    cases v with
    | inl x =>
      have h1 := t.enc_ok enc false x
      have h1' : (∃ ns, t.enc enc false x = .ok ns) ↔ TyV1 t x := ⟨h1.2.2, h1.2.1⟩
      show (∃ ns, (match t.enc enc false x with
        | .ok ns => Except.ok (ns.map (Node.rename enc))
        | .error e => .error e) = .ok ns) ↔ TyV1 t x
      rw [← h1']
      cases t.enc enc false x <;> simp
    | inr y => exact rest.enc_ok y
theorem isEmpty_V1 : (fs : Fields) → ∀ v : fs.Den, fs.isEmpty v = true → FieldsV1 fs v
  | .nil, _, _ => by simp only [FieldsV1]
  | .field _ _ _ _ _, _, h => by simp [Fields.isEmpty] at h
  | .alts as rest, v, h => by
    simp only [Fields.isEmpty, Bool.and_eq_true] at h
    simp only [FieldsV1]
    refine ⟨?_, isEmpty_V1 rest v.2 h.2⟩
    have : v.1 = [] := List.isEmpty_iff.mp h.1
    rw [this]
    intro x hx; exact absurd hx (by simp)
end

mutual
/-- The type contains no message set list. -/
def Ty.noSets : Ty → Bool
  | .leaf _ => true
  | .struct _ fs => fs.noSets
  | .closed _ _ fs => fs.noSets
  | .ptr t => t.noSets
  | .slice t => t.noSets
  | .msgSets _ => false
def Fields.noSets : Fields → Bool
  | .nil => true
  | .field _ _ _ t rest => t.noSets && rest.noSets
  | .alts as rest => as.noSets && rest.noSets
def Alts.noSets : Alts → Bool
  | .nil => true
  | .alt _ _ t rest => t.noSets && rest.noSets
end

mutual
theorem Ty.v1_of_noSets : (t : Ty) → t.noSets = true → ∀ v, TyV1 t v
  | .leaf _, _, _ => by simp only [TyV1]
  | .struct _ fs, h, v => by simp only [TyV1]; exact fs.v1_of_noSets h v.2
  | .closed _ _ fs, h, v => by simp only [TyV1]; exact fs.v1_of_noSets h v
  | .ptr t, h, v => by simp only [TyV1]; intro x _; exact t.v1_of_noSets h x
  | .slice t, h, v => by simp only [TyV1]; intro x _; exact t.v1_of_noSets h x
  | .msgSets _, h, _ => by simp [Ty.noSets] at h
theorem Fields.v1_of_noSets : (fs : Fields) → fs.noSets = true → ∀ v, FieldsV1 fs v
  | .nil, _, _ => by simp only [FieldsV1]
  | .field _ _ _ t rest, h, v => by
    simp only [Fields.noSets, Bool.and_eq_true] at h
    simp only [FieldsV1]; exact ⟨t.v1_of_noSets h.1 v.1, rest.v1_of_noSets h.2 v.2⟩
  | .alts as rest, h, v => by
    simp only [Fields.noSets, Bool.and_eq_true] at h
    simp only [FieldsV1]; exact ⟨fun x _ => as.v1_of_noSets h.1 x, rest.v1_of_noSets h.2 v.2⟩
theorem Alts.v1_of_noSets : (as : Alts) → as.noSets = true → ∀ v, AltsV1 as v
  | .nil, _, v => (show Empty from v).elim
  | .alt _ _ t rest, h, v => by
    simp only [Alts.noSets, Bool.and_eq_true] at h
    simp only [AltsV1]
    change t.Den ⊕ rest.Den at v
    cases v with
    | inl x => exact t.v1_of_noSets h.1 x
    | inr y => exact rest.v1_of_noSets h.2 y
end

end Ofx
