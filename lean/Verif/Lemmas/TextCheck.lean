import Verif.Lemmas.Shape
/-
A computable check that the texts in a value are texts of XML, used for concrete examples.
-/
namespace Ofx
open Ofx.Spec

def leafTextB : (l : Leaf) → l.Den → Bool
  | .str, v => (show Str from v).all isXmlChar
  | .uid, v => (show Str from v).all isXmlChar
  | .date, v => (show GoTime from v).zone.all isXmlChar
  | .curr, v => (show CurrSymbol from v).code.all isXmlChar
  | _, _ => true

def xnameTextB : (xn : XName) → xn.Den → Bool
  | .none, _ => true
  | .tag _, _ => true
  | .free, x => (show Str from x).isEmpty || containerB (show Str from x)

/-- The name of a message set and the name without version. -/
def setNameB (n : Str) : Bool :=
  containerB n && (!(decide ("V1".toList <:+ n)) || containerB (n.take (n.length - 2)))

mutual
def textB : (t : Ty) → t.Den → Bool
  | .leaf l, v => leafTextB l v
  | .struct xn fs, v => xnameTextB xn v.1 && fieldsTextB fs v.2
  | .closed _ _ fs, v => fieldsTextB fs v
  | .ptr t, v => Option.all (fun x => textB t x) (show Option t.Den from v)
  | .slice t, v => List.all (show List t.Den from v) (fun x => textB t x)
  | .msgSets fs, v => List.all (show List (Str × Str × fs.Den) from v)
      (fun x => setNameB x.2.1 && fieldsTextB fs x.2.2)
def fieldsTextB : (fs : Fields) → fs.Den → Bool
  | .nil, _ => true
  | .field _ _ _ t rest, v => textB t v.1 && fieldsTextB rest v.2
  | .alts as rest, v => List.all (show List as.Den from v.1) (fun x => altsTextB as x) && fieldsTextB rest v.2
def altsTextB : (as : Alts) → as.Den → Bool
  | .nil, _ => true
  | .alt _ _ t rest, v =>
    match (show t.Den ⊕ rest.Den from v) with
    | .inl x => textB t x
    | .inr y => altsTextB rest y
end

theorem leafTextB_sound : (l : Leaf) → (v : l.Den) → leafTextB l v = true → LeafText l v
  | .str, _, h => AllXml.of_all h
  | .uid, _, h => AllXml.of_all h
  | .date, _, h => AllXml.of_all h
  | .curr, _, h => AllXml.of_all h
  | .int, _, _ => trivial
  | .bool, _, _ => trivial
  | .amount, _, _ => trivial
  | .enum _, _, _ => trivial

theorem xnameTextB_sound : (xn : XName) → (x : xn.Den) → xnameTextB xn x = true → XNameText xn x
  | .none, _, _ => trivial
  | .tag _, _, _ => trivial
  | .free, x, h => by
    change Str at x
    have h : (x.isEmpty || containerB x) = true := h
    show x = [] ∨ ContainerName x
    rcases (Bool.or_eq_true _ _).mp h with h | h
    · exact .inl (List.isEmpty_iff.mp h)
    · exact .inr ((containerB_iff _).mp h)

theorem setNameB_sound {n : Str} (h : setNameB n = true) :
    ContainerName n ∧ ∀ short, n = short ++ "V1".toList → ContainerName short := by
  have h := (Bool.and_eq_true _ _).mp h
  refine ⟨(containerB_iff _).mp h.1, ?_⟩
  rintro short rfl
  rcases (Bool.or_eq_true _ _).mp h.2 with h2 | h2
  · simp at h2
  · rw [show (short ++ "V1".toList).length - 2 = short.length from by simp, List.take_left'] at h2
    · exact (containerB_iff _).mp h2
    · rfl

mutual
theorem textB_sound : (t : Ty) → (v : t.Den) → textB t v = true → TyText t v
  | .leaf l, v, h => leafTextB_sound l v h
  | .struct xn fs, v, h => by
    have h := (Bool.and_eq_true _ _).mp (show (xnameTextB xn v.1 && fieldsTextB fs v.2) = true from h)
    exact ⟨xnameTextB_sound _ _ h.1, fieldsTextB_sound fs v.2 h.2⟩
  | .closed _ _ fs, v, h => fieldsTextB_sound fs v h
  | .ptr t, v, h => by
    change Option t.Den at v
    have h : Option.all (fun x => textB t x) v = true := h
    intro x hx
    cases v with
    | none => cases hx
    | some y => cases hx; exact textB_sound t _ h
  | .slice t, v, h => by
    change List t.Den at v
    have h : List.all v (fun x => textB t x) = true := h
    intro x hx
    exact textB_sound t x (List.all_eq_true.mp h x hx)
  | .msgSets fs, v, h => by
    change List (Str × Str × fs.Den) at v
    have h : List.all v (fun x => setNameB x.2.1 && fieldsTextB fs x.2.2) = true := h
    intro x hx
    have h := (Bool.and_eq_true _ _).mp (List.all_eq_true.mp h x hx)
    have h1 := setNameB_sound h.1
    exact ⟨h1.1, h1.2, fieldsTextB_sound fs _ h.2⟩
theorem fieldsTextB_sound : (fs : Fields) → (v : fs.Den) → fieldsTextB fs v = true → FieldsText fs v
  | .nil, _, _ => trivial
  | .field p name o t rest, v, h => by
    have h := (Bool.and_eq_true _ _).mp (show (textB t v.1 && fieldsTextB rest v.2) = true from h)
    exact ⟨textB_sound t _ h.1, fieldsTextB_sound rest _ h.2⟩
  | .alts as rest, v, h => by
    have h := (Bool.and_eq_true _ _).mp
      (show (List.all (show List as.Den from v.1) (fun x => altsTextB as x) && fieldsTextB rest v.2) = true from h)
    exact ⟨fun x hx => altsTextB_sound as x (List.all_eq_true.mp h.1 x hx), fieldsTextB_sound rest _ h.2⟩
theorem altsTextB_sound : (as : Alts) → (v : as.Den) → altsTextB as v = true → AltsText as v
  | .nil, _, _ => trivial
  | .alt dec enc t rest, v, h => by
    change t.Den ⊕ rest.Den at v
    cases v with
    | inl x => exact textB_sound t x h
    | inr y => exact altsTextB_sound rest y h
end

/-! ### The documents written are laid out elements -/

theorem shaped_of_encode {α : Type} [OfxType α] (name : Str) (x : α) {ns : List Node}
    (hn : TyNames (OfxType.ty α) name = true) (hx : TyText (OfxType.ty α) (OfxType.toDen x))
    (h : encodeAs name x = .ok ns) : AllShaped ns :=
  Ty.enc_shaped _ _ _ _ _ hn hx h

theorem allNames :
    TyNames (OfxType.ty StatementRequest) "STMTTRNRQ".toList = true ∧
    TyNames (OfxType.ty StatementResponse) "STMTTRNRS".toList = true ∧
    TyNames (OfxType.ty CCStatementRequest) "CCSTMTTRNRQ".toList = true ∧
    TyNames (OfxType.ty CCStatementResponse) "CCSTMTTRNRS".toList = true ∧
    TyNames (OfxType.ty InvStatementRequest) "INVSTMTTRNRQ".toList = true ∧
    TyNames (OfxType.ty InvStatementResponse) "INVSTMTTRNRS".toList = true ∧
    TyNames (OfxType.ty ProfileRequest) "PROFTRNRQ".toList = true ∧
    TyNames (OfxType.ty ProfileResponse) "PROFTRNRS".toList = true ∧
    TyNames (OfxType.ty SecListRequest) "SECLISTTRNRQ".toList = true ∧
    TyNames (OfxType.ty SecListResponse) "SECLISTTRNRS".toList = true ∧
    TyNames (OfxType.ty SecurityList) "SECLIST".toList = true ∧
    TyNames (OfxType.ty AcctInfoRequest) "ACCTINFOTRNRQ".toList = true ∧
    TyNames (OfxType.ty AcctInfoResponse) "ACCTINFOTRNRS".toList = true ∧
    TyNames (OfxType.ty SignonRequest) "SONRQ".toList = true ∧
    TyNames (OfxType.ty SignonResponse) "SONRS".toList = true ∧
    containerB "OFX".toList = true ∧ containerB "SIGNONMSGSRQV1".toList = true ∧ containerB "SIGNONMSGSRSV1".toList = true ∧
    (∀ s ∈ requestOrder, containerB s.2.toList = true) ∧ (∀ s ∈ responseOrder, containerB s.2.toList = true) := by
  decide +kernel

theorem StatementRequest.names : TyNames (OfxType.ty StatementRequest) "STMTTRNRQ".toList = true := allNames.1
theorem StatementResponse.names : TyNames (OfxType.ty StatementResponse) "STMTTRNRS".toList = true := allNames.2.1
theorem CCStatementRequest.names : TyNames (OfxType.ty CCStatementRequest) "CCSTMTTRNRQ".toList = true := allNames.2.2.1
theorem CCStatementResponse.names : TyNames (OfxType.ty CCStatementResponse) "CCSTMTTRNRS".toList = true := allNames.2.2.2.1
theorem InvStatementRequest.names : TyNames (OfxType.ty InvStatementRequest) "INVSTMTTRNRQ".toList = true := allNames.2.2.2.2.1
theorem InvStatementResponse.names : TyNames (OfxType.ty InvStatementResponse) "INVSTMTTRNRS".toList = true := allNames.2.2.2.2.2.1
theorem ProfileRequest.names : TyNames (OfxType.ty ProfileRequest) "PROFTRNRQ".toList = true := allNames.2.2.2.2.2.2.1
theorem ProfileResponse.names : TyNames (OfxType.ty ProfileResponse) "PROFTRNRS".toList = true := allNames.2.2.2.2.2.2.2.1
theorem SecListRequest.names : TyNames (OfxType.ty SecListRequest) "SECLISTTRNRQ".toList = true := allNames.2.2.2.2.2.2.2.2.1
theorem SecListResponse.names : TyNames (OfxType.ty SecListResponse) "SECLISTTRNRS".toList = true := allNames.2.2.2.2.2.2.2.2.2.1
theorem SecurityList.names : TyNames (OfxType.ty SecurityList) "SECLIST".toList = true := allNames.2.2.2.2.2.2.2.2.2.2.1
theorem AcctInfoRequest.names : TyNames (OfxType.ty AcctInfoRequest) "ACCTINFOTRNRQ".toList = true := allNames.2.2.2.2.2.2.2.2.2.2.2.1
theorem AcctInfoResponse.names : TyNames (OfxType.ty AcctInfoResponse) "ACCTINFOTRNRS".toList = true := allNames.2.2.2.2.2.2.2.2.2.2.2.2.1
theorem SignonRequest.names : TyNames (OfxType.ty SignonRequest) "SONRQ".toList = true := allNames.2.2.2.2.2.2.2.2.2.2.2.2.2.1
theorem SignonResponse.names : TyNames (OfxType.ty SignonResponse) "SONRS".toList = true := allNames.2.2.2.2.2.2.2.2.2.2.2.2.2.2.1
theorem container_ofx : containerB "OFX".toList = true := allNames.2.2.2.2.2.2.2.2.2.2.2.2.2.2.2.1
theorem container_signonRq : containerB "SIGNONMSGSRQV1".toList = true := allNames.2.2.2.2.2.2.2.2.2.2.2.2.2.2.2.2.1
theorem container_signonRs : containerB "SIGNONMSGSRSV1".toList = true := allNames.2.2.2.2.2.2.2.2.2.2.2.2.2.2.2.2.2.1
theorem container_rqOrder : ∀ s ∈ requestOrder, containerB s.2.toList = true := allNames.2.2.2.2.2.2.2.2.2.2.2.2.2.2.2.2.2.2.1
theorem container_rsOrder : ∀ s ∈ responseOrder, containerB s.2.toList = true := allNames.2.2.2.2.2.2.2.2.2.2.2.2.2.2.2.2.2.2.2

/-- The elements written for clean messages are shaped. -/
theorem Message.encode_shaped : (m : Message) → {ns : List Node} → CleanMessage m → m.encode = .ok ns → AllShaped ns
  | .statementRequest m, _, hc, h => shaped_of_encode "STMTTRNRQ".toList m StatementRequest.names hc h
  | .statementResponse m, _, hc, h => shaped_of_encode "STMTTRNRS".toList m StatementResponse.names hc h
  | .ccStatementRequest m, _, hc, h => shaped_of_encode "CCSTMTTRNRQ".toList m CCStatementRequest.names hc h
  | .ccStatementResponse m, _, hc, h => shaped_of_encode "CCSTMTTRNRS".toList m CCStatementResponse.names hc h
  | .invStatementRequest m, _, hc, h => shaped_of_encode "INVSTMTTRNRQ".toList m InvStatementRequest.names hc h
  | .invStatementResponse m, _, hc, h => shaped_of_encode "INVSTMTTRNRS".toList m InvStatementResponse.names hc h
  | .profileRequest m, _, hc, h => shaped_of_encode "PROFTRNRQ".toList m ProfileRequest.names hc h
  | .profileResponse m, _, hc, h => shaped_of_encode "PROFTRNRS".toList m ProfileResponse.names hc h
  | .secListRequest m, _, hc, h => shaped_of_encode "SECLISTTRNRQ".toList m SecListRequest.names hc h
  | .secListResponse m, _, hc, h => shaped_of_encode "SECLISTTRNRS".toList m SecListResponse.names hc h
  | .securityList m, _, hc, h => shaped_of_encode "SECLIST".toList m SecurityList.names hc h
  | .acctInfoRequest m, _, hc, h => shaped_of_encode "ACCTINFOTRNRQ".toList m AcctInfoRequest.names hc h
  | .acctInfoResponse m, _, hc, h => shaped_of_encode "ACCTINFOTRNRS".toList m AcctInfoResponse.names hc h

theorem bodyOf_shaped {M : Type} {order : List (MsgSet × String)} {signonSet : String} {signon : Node} {sets : MsgSet → List M}
    {content : MsgSet → List Node} (ho : ∀ s ∈ order, containerB s.2.toList = true) (hs : containerB signonSet.toList = true)
    (h1 : Shaped signon) (h2 : ∀ s ∈ order, ∀ c ∈ content s.1, Shaped c) :
    Shaped (bodyOf order signonSet signon sets content) := by
  unfold bodyOf
  refine .node ((containerB_iff _).mp container_ofx) ?_
  intro c hc
  rcases List.mem_cons.mp hc with rfl | hc
  · refine .node ((containerB_iff _).mp hs) ?_
    intro c hc
    rw [List.mem_singleton.mp hc]; exact h1
  · obtain ⟨s, hm, rfl⟩ := List.mem_map.mp hc
    have hm := (List.mem_filter.mp hm).1
    exact .node ((containerB_iff _).mp (ho s hm)) (h2 s hm)

end Ofx
