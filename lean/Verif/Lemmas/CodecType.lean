import Verif.Lemmas.CodecMain
import Verif.Lemmas.Exact
import Verif.Codec.Type
/-
Round trip for every `OfxType`.
-/
namespace Ofx
open Spec

theorem foldE_single_ok {α β : Type} {f : α → β → Except String α} {z : α} {c : β} {v : α}
    (h : foldE f z [c] = .ok v) : f z c = .ok v := by
  rwa [foldE_one] at h

/-- Encoding writes exactly one element, from which decoding produces the related value. -/
theorem roundtrip_rel {α : Type} [OfxType α] (env : Env) (name : Str)
    (hl : ∀ l, OfxType.lit α = some l → l = name) (x : α) (d : (OfxType.ty α).Den)
    (h : (OfxType.ty α).Rel env name (OfxType.toDen x) d) :
    ∃ children, encodeAs name x = .ok [.elem name children] ∧
      decodeNew (α := α) env name children = .ok (OfxType.ofDen d) := by
  obtain ⟨css, h1, h2, h3, -⟩ := Ty.rt env (OfxType.ty α) name false _ d (OfxType.wf name hl) h
  obtain ⟨cs, rfl⟩ := h3 OfxType.single (Or.inl rfl)
  refine ⟨cs, by simpa [encodeAs] using h1, ?_⟩
  have h4 := foldE_single_ok h2
  unfold decodeNew
  rw [h4]

theorem roundtrip_same {α : Type} [OfxType α] (env : Env) (name : Str)
    (hl : ∀ l, OfxType.lit α = some l → l = name) (x : α) (h : TyExact env (OfxType.ty α) name (OfxType.toDen x)) :
    ∃ children x', encodeAs name x = .ok [.elem name children] ∧
      decodeNew env name children = .ok x' ∧ TySame (OfxType.ty α) name (OfxType.toDen x) (OfxType.toDen x') := by
  obtain ⟨d, h1, h2⟩ := ty_exact env _ name _ h
  obtain ⟨cs, g1, g2⟩ := roundtrip_rel env name hl x d h1
  exact ⟨cs, OfxType.ofDen d, g1, g2, by rwa [OfxType.toDen_ofDen]⟩

theorem roundtrip_eq {α : Type} [OfxType α] (env : Env) (name : Str)
    (hl : ∀ l, OfxType.lit α = some l → l = name) (x : α) (h : TyExact env (OfxType.ty α) name (OfxType.toDen x))
    (hs : TySettled (OfxType.ty α) name (OfxType.toDen x)) :
    ∃ children, encodeAs name x = .ok [.elem name children] ∧ decodeNew env name children = .ok x := by
  obtain ⟨d, h1, h2⟩ := ty_exact env _ name _ h
  have := ty_settled _ name _ d h2 hs
  subst this
  obtain ⟨cs, g1, g2⟩ := roundtrip_rel env name hl x _ h1
  exact ⟨cs, g1, by rwa [OfxType.ofDen_toDen] at g2⟩

end Ofx
