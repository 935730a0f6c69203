import Verif.Codec.Rel
/-
Go types as instances: conversion to the schema, and encoding and decoding one element.
-/
namespace Ofx

/-- A Go struct or list type of the library with its schema.
The struct declarations of bank.go, common.go, creditcard.go, invstmt.go, profile.go, seclist.go, signon.go, signup.go. -/
class OfxType (α : Type) where
  ty : Ty
  toDen : α → ty.Den
  ofDen : ty.Den → α
  ofDen_toDen : ∀ x, ofDen (toDen x) = x
  toDen_ofDen : ∀ d, toDen (ofDen d) = d
  /-- the list types are always written under this element name -/
  lit : Option Str
  single : ty.single = true
  wf : ∀ name, (∀ l, lit = some l → l = name) → ty.wf name false = true

/-- xml.Encoder.EncodeElement of `x` under the element `name`. Called in request.go 52. -/
def encodeAs {α : Type} [OfxType α] (name : Str) (x : α) : Except String (List Node) :=
  (OfxType.ty α).enc name false (OfxType.toDen x)

/-- xml.Decoder.DecodeElement into a fresh variable. Called in response.go 256. -/
def decodeNew {α : Type} [OfxType α] (env : Env) (name : Str) (children : List Node) : Except String α :=
  match (OfxType.ty α).dec env (OfxType.ty α).zero name children with
  | .ok d => .ok (OfxType.ofDen d)
  | .error e => .error e

theorem struct_wf {xn : XName} {fs : Fields} (h : fs.wf fs = true) {name : Str} :
    (Ty.struct xn fs).wf name false = true := by
  simpa [Ty.wf] using h

theorem closed_wf {lit : Str} {b : Bool} {fs : Fields} {name : Str} (hl : ∀ l, some lit = some l → l = name)
    (h : fs.wf fs = true) : (Ty.closed lit b fs).wf name false = true := by
  simp [Ty.wf, h, hl lit rfl]

end Ofx
