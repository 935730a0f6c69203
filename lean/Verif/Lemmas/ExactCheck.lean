import Verif.Spec.Exact
import Verif.Codec.Type
import Mathlib.Data.Rat.Lemmas
import Mathlib.Tactic.FieldSimp
/-
A boolean test for `TyExact` and `TySettled`, used to show that concrete messages meet
them.
-/
namespace Ofx
open Spec

/-- `IsTrim` as a test. -/
def trimB (s : Str) : Bool :=
  s.head?.all (fun c => decide (c.toNat ∉ whiteSpace)) && s.getLast?.all (fun c => decide (c.toNat ∉ whiteSpace))

theorem trimB_sound {s : Str} (h : trimB s = true) : IsTrim s := by
  unfold trimB at h
  rw [Bool.and_eq_true] at h
  constructor
  · intro c hc; have := h.1; rw [hc] at this; simpa using this
  · intro c hc; have := h.2; rw [hc] at this; simpa using this

instance (t : GoTime) : Decidable (ExactDate t) := by unfold ExactDate; infer_instance

def leafB (env : Env) : (l : Leaf) → l.Den → Bool
  | .str, v => trimB v
  | .uid, v => trimB v
  | .int, v => decide (-9223372036854775808 ≤ (show Int from v) ∧ (show Int from v) ≤ 9223372036854775807)
  | .bool, _ => true
  | .amount, v => decide (10 ^ 100 % (show Rat from v).den = 0)
  | .date, v => decide (ExactDate v)
  | .curr, v => decide ((show CurrSymbol from v) = CurrSymbol.zero) ||
      (match @CurrSymbol.unmarshal env.curr (show CurrSymbol from v).code with
       | .ok u => decide (u = v)
       | .error _ => false)
  | .enum t, v => decide (t ∈ allEnums) && (decide ((show Nat from v) = 0) || t.valid v)

theorem leafB_sound (env : Env) : (l : Leaf) → (v : l.Den) → leafB env l v = true → LeafExact env l v
  | .str, _, h => trimB_sound h
  | .uid, _, h => trimB_sound h
  | .int, _, h => show _ ∧ _ from of_decide_eq_true h
  | .bool, _, _ => trivial
  | .amount, v, h => by
    change Rat at v
    have h : 10 ^ 100 % v.den = 0 := of_decide_eq_true h
    obtain ⟨k, hk⟩ := Nat.dvd_of_mod_eq_zero h
    refine ⟨v.num * k, ?_⟩
    show v = _
    have hd : (v.den : Rat) ≠ 0 := by exact_mod_cast v.den_nz
    have hk' : (10 : Rat) ^ 100 = v.den * k := by exact_mod_cast hk
    have hkz : (k : Rat) ≠ 0 := by
      intro h0
      rw [h0, mul_zero] at hk'
      exact pow_ne_zero 100 (by decide : (10 : Rat) ≠ 0) hk'
    rw [hk']
    push_cast
    rw [mul_div_mul_right _ _ hkz, Rat.num_div_den]
  | .date, v, h => show ExactDate v from of_decide_eq_true h
  | .curr, v, h => by
    change CurrSymbol at v
    change (decide (v = CurrSymbol.zero) || (match @CurrSymbol.unmarshal env.curr v.code with
       | .ok u => decide (u = v)
       | .error _ => false)) = true at h
    rw [Bool.or_eq_true] at h
    rcases h with h | h
    · exact .inl (of_decide_eq_true h)
    · right
      refine ⟨v.code, ?_⟩
      cases hu : @CurrSymbol.unmarshal env.curr v.code with
      | error e => rw [hu] at h; cases h
      | ok u => rw [hu] at h; exact congrArg _ (of_decide_eq_true h)
  | .enum t, v, h => by
    have h : (decide (t ∈ allEnums) && (decide ((show Nat from v) = 0) || t.valid v)) = true := h
    rw [Bool.and_eq_true, Bool.or_eq_true] at h
    refine ⟨of_decide_eq_true h.1, ?_⟩
    rcases h.2 with h | h
    · exact .inl (of_decide_eq_true h)
    · exact .inr h

def xnameB : (xn : XName) → Str → xn.Den → Bool
  | .none, _, _ => true
  | .tag t, name, _ => decide (t = name)
  | .free, name, x => decide ((show Str from x) = [] ∨ (show Str from x) = name)

theorem xnameB_sound : (xn : XName) → (name : Str) → (x : xn.Den) → xnameB xn name x = true → XNameExact xn name x
  | .none, _, _, _ => trivial
  | .tag _, _, _, h => show _ = _ from of_decide_eq_true h
  | .free, _, _, h => show _ ∨ _ from of_decide_eq_true h

mutual
def tyB (env : Env) : (t : Ty) → Str → t.Den → Bool
  | .leaf l, _, v => leafB env l v
  | .struct xn fs, name, v => xnameB xn name v.1 && fieldsB env fs v.2
  | .closed _ _ fs, _, v => fieldsB env fs v
  | .ptr t, name, v => Option.all (fun x => tyB env t name x) (show Option t.Den from v)
  | .slice t, name, v => List.all (show List t.Den from v) (fun x => tyB env t name x)
  | .msgSets fs, _, v => List.all (show List (Str × Str × fs.Den) from v)
      (fun x => "V1".toList.isSuffixOf x.2.1 && decide (2 < x.2.1.length) && fieldsB env fs x.2.2)
def fieldsB (env : Env) : (fs : Fields) → fs.Den → Bool
  | .nil, _ => true
  | .field _ name _ t rest, v => tyB env t name v.1 && fieldsB env rest v.2
  | .alts as rest, v => List.all (show List as.Den from v.1) (fun x => altsB env as x) && fieldsB env rest v.2
def altsB (env : Env) : (as : Alts) → as.Den → Bool
  | .nil, _ => true
  | .alt dec _ t rest, v =>
    match (show t.Den ⊕ rest.Den from v) with
    | .inl x => tyB env t dec x
    | .inr y => altsB env rest y
end

mutual
theorem tyB_sound (env : Env) : (t : Ty) → (name : Str) → (v : t.Den) → tyB env t name v = true → TyExact env t name v
  | .leaf l, _, v, h => leafB_sound env l v h
  | .struct xn fs, name, v, h => by
    have h := (Bool.and_eq_true _ _).mp (show (xnameB xn name v.1 && fieldsB env fs v.2) = true from h)
    exact ⟨xnameB_sound _ _ _ h.1, fieldsB_sound env fs v.2 h.2⟩
  | .closed _ _ fs, _, v, h => fieldsB_sound env fs v h
  | .ptr t, name, v, h => by
    change Option t.Den at v
    have h : Option.all (fun x => tyB env t name x) v = true := h
    intro x hx
    cases v with
    | none => cases hx
    | some y => cases hx; exact tyB_sound env t name _ h
  | .slice t, name, v, h => by
    change List t.Den at v
    have h : List.all v (fun x => tyB env t name x) = true := h
    intro x hx
    exact tyB_sound env t name x (List.all_eq_true.mp h x hx)
  | .msgSets fs, name, v, h => by
    change List (Str × Str × fs.Den) at v
    have h : List.all v (fun x => "V1".toList.isSuffixOf x.2.1 && decide (2 < x.2.1.length) && fieldsB env fs x.2.2) = true := h
    intro x hx
    have h := (Bool.and_eq_true _ _).mp (List.all_eq_true.mp h x hx)
    have h1 := (Bool.and_eq_true _ _).mp h.1
    obtain ⟨t, ht⟩ := List.isSuffixOf_iff_suffix.mp h1.1
    have h2 := of_decide_eq_true h1.2
    exact ⟨⟨t, (by rintro rfl; rw [← ht] at h2; exact absurd h2 (by decide)), ht.symm⟩, fieldsB_sound env fs _ h.2⟩
theorem fieldsB_sound (env : Env) : (fs : Fields) → (v : fs.Den) → fieldsB env fs v = true → FieldsExact env fs v
  | .nil, _, _ => trivial
  | .field p name o t rest, v, h => by
    have h := (Bool.and_eq_true _ _).mp (show (tyB env t name v.1 && fieldsB env rest v.2) = true from h)
    exact ⟨tyB_sound env t name _ h.1, fieldsB_sound env rest _ h.2⟩
  | .alts as rest, v, h => by
    have h := (Bool.and_eq_true _ _).mp
      (show (List.all (show List as.Den from v.1) (fun x => altsB env as x) && fieldsB env rest v.2) = true from h)
    exact ⟨fun x hx => altsB_sound env as x (List.all_eq_true.mp h.1 x hx), fieldsB_sound env rest _ h.2⟩
theorem altsB_sound (env : Env) : (as : Alts) → (v : as.Den) → altsB env as v = true → AltsExact env as v
  | .nil, _, _ => trivial
  | .alt dec enc t rest, v, h => by
    change t.Den ⊕ rest.Den at v
    cases v with
    | inl x => exact tyB_sound env t dec x h
    | inr y => exact altsB_sound env rest y h
end

theorem exact_of_check {α : Type} [OfxType α] (env : Env) (name : Str) (x : α)
    (h : tyB env (OfxType.ty α) name (OfxType.toDen x) = true) : TyExact env (OfxType.ty α) name (OfxType.toDen x) :=
  tyB_sound env _ name _ h

/-! ### Settled values -/

def leafSettledB : (l : Leaf) → l.Den → Bool
  | .date, v => !(show GoTime from v).zone.isEmpty
  | _, _ => true

def xnameSettledB : (xn : XName) → Str → xn.Den → Bool
  | .none, _, _ => true
  | .tag _, _, _ => true
  | .free, name, x => decide ((show Str from x) = name)

mutual
def settledB : (t : Ty) → Str → t.Den → Bool
  | .leaf l, _, v => leafSettledB l v
  | .struct xn fs, name, v => xnameSettledB xn name v.1 && fieldsSettledB fs v.2
  | .closed _ _ fs, _, v => fieldsSettledB fs v
  | .ptr t, name, v => Option.all (fun x => settledB t name x) (show Option t.Den from v)
  | .slice t, name, v => List.all (show List t.Den from v) (fun x => settledB t name x)
  | .msgSets fs, _, v => List.all (show List (Str × Str × fs.Den) from v)
      (fun x => decide (x.1 = x.2.1) && fieldsSettledB fs x.2.2)
def fieldsSettledB : (fs : Fields) → fs.Den → Bool
  | .nil, _ => true
  | .field _ name _ t rest, v => settledB t name v.1 && fieldsSettledB rest v.2
  | .alts as rest, v => List.all (show List as.Den from v.1) (fun x => altsSettledB as x) && fieldsSettledB rest v.2
def altsSettledB : (as : Alts) → as.Den → Bool
  | .nil, _ => true
  | .alt dec _ t rest, v =>
    match (show t.Den ⊕ rest.Den from v) with
    | .inl x => settledB t dec x
    | .inr y => altsSettledB rest y
end

theorem leafSettledB_sound : (l : Leaf) → (v : l.Den) → leafSettledB l v = true → LeafSettled l v
  | .str, _, _ => trivial
  | .uid, _, _ => trivial
  | .int, _, _ => trivial
  | .bool, _, _ => trivial
  | .amount, _, _ => trivial
  | .curr, _, _ => trivial
  | .enum _, _, _ => trivial
  | .date, v, h => by
    change GoTime at v
    have h : (!v.zone.isEmpty) = true := h
    show v.zone ≠ []
    intro h0
    rw [h0] at h; cases h

theorem xnameSettledB_sound : (xn : XName) → (name : Str) → (x : xn.Den) → xnameSettledB xn name x = true →
    XNameSame xn name x
  | .none, _, _, _ => trivial
  | .tag _, _, _, _ => trivial
  | .free, _, _, h => show _ = _ from of_decide_eq_true h

mutual
theorem settledB_sound : (t : Ty) → (name : Str) → (v : t.Den) → settledB t name v = true → TySettled t name v
  | .leaf l, _, v, h => leafSettledB_sound l v h
  | .struct xn fs, name, v, h => by
    have h := (Bool.and_eq_true _ _).mp (show (xnameSettledB xn name v.1 && fieldsSettledB fs v.2) = true from h)
    exact ⟨xnameSettledB_sound _ _ _ h.1, fieldsSettledB_sound fs v.2 h.2⟩
  | .closed _ _ fs, _, v, h => fieldsSettledB_sound fs v h
  | .ptr t, name, v, h => by
    change Option t.Den at v
    have h : Option.all (fun x => settledB t name x) v = true := h
    intro x hx
    cases v with
    | none => cases hx
    | some y => cases hx; exact settledB_sound t name _ h
  | .slice t, name, v, h => by
    change List t.Den at v
    have h : List.all v (fun x => settledB t name x) = true := h
    intro x hx
    exact settledB_sound t name x (List.all_eq_true.mp h x hx)
  | .msgSets fs, name, v, h => by
    change List (Str × Str × fs.Den) at v
    have h : List.all v (fun x => decide (x.1 = x.2.1) && fieldsSettledB fs x.2.2) = true := h
    intro x hx
    have h := (Bool.and_eq_true _ _).mp (List.all_eq_true.mp h x hx)
    exact ⟨of_decide_eq_true h.1, fieldsSettledB_sound fs _ h.2⟩
theorem fieldsSettledB_sound : (fs : Fields) → (v : fs.Den) → fieldsSettledB fs v = true → FieldsSettled fs v
  | .nil, _, _ => trivial
  | .field p name o t rest, v, h => by
    have h := (Bool.and_eq_true _ _).mp (show (settledB t name v.1 && fieldsSettledB rest v.2) = true from h)
    exact ⟨settledB_sound t name _ h.1, fieldsSettledB_sound rest _ h.2⟩
  | .alts as rest, v, h => by
    have h := (Bool.and_eq_true _ _).mp
      (show (List.all (show List as.Den from v.1) (fun x => altsSettledB as x) && fieldsSettledB rest v.2) = true from h)
    exact ⟨fun x hx => altsSettledB_sound as x (List.all_eq_true.mp h.1 x hx), fieldsSettledB_sound rest _ h.2⟩
theorem altsSettledB_sound : (as : Alts) → (v : as.Den) → altsSettledB as v = true → AltsSettled as v
  | .nil, _, _ => trivial
  | .alt dec enc t rest, v, h => by
    change t.Den ⊕ rest.Den at v
    cases v with
    | inl x => exact settledB_sound t dec x h
    | inr y => exact altsSettledB_sound rest y h
end

end Ofx
