import Verif.Model.Marshal
import Verif.Lemmas.EncodeOk
import Verif.Props.Valid
/-
Helper lemmas for the marshalling properties.
-/
namespace Ofx
open Spec

theorem enc_struct_shape {n : Str} {fs : Fields} {name : Str} {om : Bool} {v : (Ty.struct (.tag n) fs).Den} {ns : List Node}
    (h : (Ty.struct (.tag n) fs).enc name om v = .ok ns) : ∃ cs, ns = [.elem n cs] := by
  simp only [Ty.enc] at h
  cases hq : fs.enc v.2 with
  | error e => rw [hq] at h; cases h
  | ok items => rw [hq] at h; cases h; exact ⟨_, rfl⟩

theorem enc_closed_shape {n : Str} {fs : Fields} {name : Str} {v : (Ty.closed n false fs).Den} {ns : List Node}
    (h : (Ty.closed n false fs).enc name false v = .ok ns) : ∃ cs, ns = [.elem n cs] := by
  simp only [Ty.enc, Bool.and_false, Bool.false_and, Bool.false_eq_true, if_false] at h
  cases hq : fs.enc v with
  | error e => rw [hq] at h; cases h
  | ok items => rw [hq] at h; cases h; exact ⟨_, rfl⟩

/-- A message is written as one element carrying its name. -/
theorem Message.encode_shape (m : Message) {ns : List Node} (h : m.encode = .ok ns) : ∃ cs, ns = [.elem m.name cs] := by
  cases m with
  | statementRequest m => exact enc_struct_shape (fs := StatementRequest.fields) (om := false) h
  | statementResponse m => exact enc_struct_shape (fs := StatementResponse.fields) (om := false) h
  | ccStatementRequest m => exact enc_struct_shape (fs := CCStatementRequest.fields) (om := false) h
  | ccStatementResponse m => exact enc_struct_shape (fs := CCStatementResponse.fields) (om := false) h
  | invStatementRequest m => exact enc_struct_shape (fs := InvStatementRequest.fields) (om := false) h
  | invStatementResponse m => exact enc_struct_shape (fs := InvStatementResponse.fields) (om := false) h
  | profileRequest m => exact enc_struct_shape (fs := ProfileRequest.fields) (om := false) h
  | profileResponse m => exact enc_struct_shape (fs := ProfileResponse.fields) (om := false) h
  | secListRequest m => exact enc_struct_shape (fs := SecListRequest.fields) (om := false) h
  | secListResponse m => exact enc_struct_shape (fs := SecListResponse.fields) (om := false) h
  | securityList m => exact enc_closed_shape (fs := SecurityList.fields) (name := "SECLIST".toList) h
  | acctInfoRequest m => exact enc_struct_shape (fs := AcctInfoRequest.fields) (om := false) h
  | acctInfoResponse m => exact enc_struct_shape (fs := AcctInfoResponse.fields) (om := false) h

/-- The names of the message sets in a profile end in V1. -/
def AllV1 (l : List MessageSet) : Prop := ∀ s ∈ l, ∃ short, short ≠ [] ∧ s.Name = short ++ "V1".toList

/-- Encodable messages: all but profiles listing a message set whose version is not 1. -/
def Encodable : Message → Prop
  | .profileResponse p => AllV1 p.MessageSetList
  | _ => True

theorem encode_noSets {α : Type} [OfxType α] (h : (OfxType.ty α).noSets = true) (name : Str) (x : α) :
    ∃ ns, encodeAs name x = .ok ns :=
  (Ty.enc_ok _ name false _).2.1 (Ty.v1_of_noSets _ h _)

theorem ProfileResponse.v1_iff (p : ProfileResponse) : TyV1 ProfileResponse.ty (ProfileResponse.toDen p) ↔ AllV1 p.MessageSetList := by
  have h1 : SignonInfo.ty.noSets = true := by decide +kernel
  have h2 : Status.ty.noSets = true := by decide +kernel
  have h3 : ∀ fs : Fields, fs = .nil → ∀ v : fs.Den, FieldsV1 fs v := by
    rintro _ rfl v; simp only [FieldsV1]
  have h4 : ∀ v, FieldsV1 MessageSet.tagged v := Fields.v1_of_noSets _ (by decide +kernel)
  constructor
  · intro h s hs
    have h5 := h.2.2.2.1
    exact (h5 (MessageSet.toDen s) (List.mem_map_of_mem hs)).1
  · intro h
    refine ⟨trivial, Ty.v1_of_noSets _ h2 _, trivial, ?_, ?_⟩
    · intro x hx
      obtain ⟨s, hs, rfl⟩ := List.mem_map.mp hx
      exact ⟨h s hs, h4 _⟩
    · exact Fields.v1_of_noSets _ (by decide +kernel) _

theorem Message.encode_ok_iff (m : Message) : (∃ ns, m.encode = .ok ns) ↔ Encodable m := by
  cases m with
  | profileResponse p =>
    have := Ty.enc_ok ProfileResponse.ty "PROFTRNRS".toList false (ProfileResponse.toDen p)
    exact (this.1 rfl).trans (ProfileResponse.v1_iff p)
  | statementRequest m => exact iff_of_true (encode_noSets (by decide +kernel) _ m) trivial
  | statementResponse m => exact iff_of_true (encode_noSets (by decide +kernel) _ m) trivial
  | ccStatementRequest m => exact iff_of_true (encode_noSets (by decide +kernel) _ m) trivial
  | ccStatementResponse m => exact iff_of_true (encode_noSets (by decide +kernel) _ m) trivial
  | invStatementRequest m => exact iff_of_true (encode_noSets (by decide +kernel) _ m) trivial
  | invStatementResponse m => exact iff_of_true (encode_noSets (by decide +kernel) _ m) trivial
  | profileRequest m => exact iff_of_true (encode_noSets (by decide +kernel) _ m) trivial
  | secListRequest m => exact iff_of_true (encode_noSets (by decide +kernel) _ m) trivial
  | secListResponse m => exact iff_of_true (encode_noSets (by decide +kernel) _ m) trivial
  | securityList m => exact iff_of_true (encode_noSets (by decide +kernel) _ m) trivial
  | acctInfoRequest m => exact iff_of_true (encode_noSets (by decide +kernel) _ m) trivial
  | acctInfoResponse m => exact iff_of_true (encode_noSets (by decide +kernel) _ m) trivial

theorem signonRq_encode (so : SignonRequest) : ∃ cs, encodeAs "SONRQ".toList so = .ok [.elem "SONRQ".toList cs] := by
  obtain ⟨ns, h⟩ := encode_noSets (α := SignonRequest) (by decide +kernel) "SONRQ".toList so
  obtain ⟨cs, rfl⟩ := enc_struct_shape (fs := SignonRequest.fields) (om := false) h
  exact ⟨cs, h⟩

theorem signonRs_encode (so : SignonResponse) : ∃ cs, encodeAs "SONRS".toList so = .ok [.elem "SONRS".toList cs] := by
  obtain ⟨ns, h⟩ := encode_noSets (α := SignonResponse) (by decide +kernel) "SONRS".toList so
  obtain ⟨cs, rfl⟩ := enc_struct_shape (fs := SignonResponse.fields) (om := false) h
  exact ⟨cs, h⟩

section
variable {M : Type} [MessageImpl M]

/-- What one successful message contributes. -/
def EncOk (version : Nat) (set : MsgType) (m : M) (ns : List Node) : Prop :=
  MessageImpl.type m = set ∧ (MessageImpl.valid version m).1 = none ∧
    MessageImpl.encode (MessageImpl.valid version m).2 = .ok ns

theorem encodeMessages_ok (version : Nat) (set : MsgType) (ms : List M) (ns : List Node) :
    (encodeMessages version set ms).1 = .ok ns ↔
      ∃ content : List (List Node), List.Forall₂ (EncOk version set) ms content ∧ ns = content.flatten := by
  induction ms generalizing ns with
  | nil =>
    simp only [encodeMessages]
    constructor
    · intro h; cases h; exact ⟨[], .nil, rfl⟩
    · rintro ⟨c, h, rfl⟩; cases h; rfl
  | cons m ms ih =>
    simp only [encodeMessages]
    by_cases ht : MessageImpl.type m = set
    · simp only [ne_eq, ht, not_true_eq_false, if_false]
      cases hv : MessageImpl.valid version m with
      | mk e m' =>
      cases e with
      | some e =>
        simp only [reduceCtorEq, false_iff]
        rintro ⟨c, h, rfl⟩
        cases h with
        | cons h _ => have := h.2.1; rw [hv] at this; cases this
      | none =>
        simp only
        cases he : MessageImpl.encode m' with
        | error e =>
          simp only [reduceCtorEq, false_iff]
          rintro ⟨c, h, rfl⟩
          cases h with
          | cons h _ => have := h.2.2; rw [hv] at this; simp only at this; rw [he] at this; cases this
        | ok ns1 =>
          simp only
          cases hr : encodeMessages version set ms with
          | mk r ms' =>
          rw [hr] at ih
          simp only at ih
          have hm : EncOk version set m ns1 := ⟨ht, by rw [hv], by rw [hv]; exact he⟩
          cases r with
          | error e =>
            simp only [reduceCtorEq, false_iff]
            rintro ⟨c, h, rfl⟩
            cases h with
            | cons h1 h2 => exact absurd ((ih _).mpr ⟨_, h2, rfl⟩) (by simp)
          | ok rest =>
            simp only [Except.ok.injEq]
            constructor
            · rintro rfl
              obtain ⟨c, hc, rfl⟩ := (ih rest).mp rfl
              exact ⟨ns1 :: c, .cons hm hc, rfl⟩
            · rintro ⟨c, h, rfl⟩
              cases h with
              | cons h1 h2 =>
                have h3 := h1.2.2
                rw [hv] at h3; simp only at h3; rw [he] at h3
                cases h3
                have h4 := (ih _).mpr ⟨_, h2, rfl⟩
                cases h4
                rfl
    · simp only [ne_eq, ht, not_false_eq_true, if_true, reduceCtorEq, false_iff]
      rintro ⟨c, h, rfl⟩
      cases h with
      | cons h _ => exact ht h.1

theorem encodeMessageSet_ok (version : Nat) (set : MsgType) (ms : List M) (ns : List Node) :
    (encodeMessageSet version set ms).1 = .ok ns ↔
      ∃ content : List (List Node), List.Forall₂ (EncOk version set) ms content ∧
        ns = if ms = [] then [] else [.elem set.string content.flatten] := by
  unfold encodeMessageSet
  cases ms with
  | nil =>
    simp only [List.length_nil, Nat.lt_irrefl, if_false, gt_iff_lt, Except.ok.injEq, if_true]
    constructor
    · rintro rfl; exact ⟨[], .nil, rfl⟩
    · rintro ⟨_, _, rfl⟩; rfl
  | cons m ms =>
    simp only [List.length_cons, gt_iff_lt, Nat.zero_lt_succ, if_true, reduceCtorEq, if_false]
    have h := encodeMessages_ok version set (m :: ms)
    cases hr : encodeMessages version set (m :: ms) with
    | mk r ms' =>
    rw [hr] at h
    simp only at h
    cases r with
    | error e =>
      simp only [reduceCtorEq, false_iff]
      rintro ⟨c, hc, rfl⟩
      exact absurd ((h _).mpr ⟨c, hc, rfl⟩) (by simp)
    | ok ns1 =>
      simp only [Except.ok.injEq]
      constructor
      · rintro rfl
        obtain ⟨c, hc, rfl⟩ := (h ns1).mp rfl
        exact ⟨c, hc, rfl⟩
      · rintro ⟨c, hc, rfl⟩
        have := (h _).mpr ⟨c, hc, rfl⟩
        cases this; rfl

/-- Success of the loop over the sets. -/
theorem encodeSets_ok (version : Nat) (type : MsgSet → MsgType) (ss : List MsgSet) (hn : ss.Nodup)
    (f : MsgSet → List M) (ns : List Node) :
    (encodeSets version type ss f).1 = .ok ns ↔
      ∃ content : MsgSet → List (List Node), (∀ s ∈ ss, List.Forall₂ (EncOk version (type s)) (f s) (content s)) ∧
        ns = (ss.filter (fun s => !(f s).isEmpty)).map (fun s => .elem (type s).string (content s).flatten) := by
  induction ss generalizing f ns with
  | nil => simp [encodeSets, eq_comm]
  | cons s ss ih =>
    rw [List.nodup_cons] at hn
    simp only [encodeSets]
    have h := encodeMessageSet_ok version (type s) (f s)
    cases hr : encodeMessageSet version (type s) (f s) with
    | mk r ms =>
    rw [hr] at h
    simp only at h
    cases r with
    | error e =>
      simp only [reduceCtorEq, false_iff]
      rintro ⟨c, hc, rfl⟩
      exact absurd ((h _).mpr ⟨c s, hc s (by simp), rfl⟩) (by simp)
    | ok ns1 =>
      simp only
      have ih := ih hn.2 (Function.update f s ms)
      have hupd : ∀ s' ∈ ss, Function.update f s ms s' = f s' := by
        intro s' hs'
        rw [Function.update_of_ne]
        rintro rfl; exact hn.1 hs'
      have hfil : ss.filter (fun s' => !(Function.update f s ms s').isEmpty) = ss.filter (fun s' => !(f s').isEmpty) := by
        apply List.filter_congr
        intro s' hs'; rw [hupd s' hs']
      cases hr2 : encodeSets version type ss (Function.update f s ms) with
      | mk r2 g =>
      rw [hr2] at ih
      simp only at ih
      obtain ⟨c1, hc1, hns1⟩ := (h ns1).mp rfl
      cases r2 with
      | error e =>
        simp only [reduceCtorEq, false_iff]
        rintro ⟨c, hc, rfl⟩
        refine absurd ((ih _).mpr ⟨c, fun s' hs' => ?_, rfl⟩) (by simp)
        rw [hupd s' hs']; exact hc s' (by simp [hs'])
      | ok rest =>
        simp only [Except.ok.injEq]
        constructor
        · rintro rfl
          obtain ⟨c, hc, hrest⟩ := (ih rest).mp rfl
          refine ⟨Function.update c s c1, ?_, ?_⟩
          · intro s' hs'
            by_cases e : s' = s
            · subst e; rw [Function.update_self]; exact hc1
            · rw [Function.update_of_ne e]
              have hs'' : s' ∈ ss := by simpa [e] using hs'
              have := hc s' hs''
              rwa [hupd s' hs''] at this
          · rw [hrest, hns1, hfil]
            have hmap : ∀ l : List MsgSet, s ∉ l →
                l.map (fun s' => Node.elem (type s').string (Function.update c s c1 s').flatten) =
                l.map (fun s' => Node.elem (type s').string (c s').flatten) := by
              intro l hl
              apply List.map_congr_left
              intro s' hs'
              rw [Function.update_of_ne]
              rintro rfl; exact hl hs'
            have hns : s ∉ ss.filter (fun s => !(f s).isEmpty) := fun hh => hn.1 (List.mem_filter.mp hh).1
            cases hf : f s with
            | nil => rw [if_pos rfl, List.filter_cons_of_neg (by simp [hf]), hmap _ hns]; rfl
            | cons a l =>
              rw [if_neg (by simp), List.filter_cons_of_pos (by simp [hf]), List.map_cons, hmap _ hns, Function.update_self]
              rfl
        · rintro ⟨c, hc, rfl⟩
          have h1 := (h _).mpr ⟨c s, hc s (by simp), rfl⟩
          have h2 := (ih _).mpr ⟨c, fun s' hs' => by rw [hupd s' hs']; exact hc s' (by simp [hs']), rfl⟩
          cases h1
          cases h2
          rw [hfil]
          cases hf : f s with
          | nil => rw [if_pos rfl, List.filter_cons_of_neg (by simp [hf])]; rfl
          | cons a l => rw [if_neg (by simp), List.filter_cons_of_pos (by simp [hf])]; rfl

/-- Messages whose Valid method keeps the type and is settled after one call. -/
class LawfulMessage (M : Type) [MessageImpl M] : Prop where
  type_valid : ∀ (v : Nat) (m : M), MessageImpl.type (MessageImpl.valid v m).2 = MessageImpl.type m
  valid_valid : ∀ (v : Nat) (m : M), MessageImpl.valid v (MessageImpl.valid v m).2 = MessageImpl.valid v m

theorem encodeMessages_again [LawfulMessage M] (version : Nat) (set : MsgType) (ms : List M) :
    encodeMessages version set (encodeMessages version set ms).2 = encodeMessages version set ms := by
  induction ms with
  | nil => rfl
  | cons m ms ih =>
    simp only [encodeMessages]
    by_cases ht : MessageImpl.type m = set
    · simp only [ne_eq, ht, not_true_eq_false, if_false]
      have l1 := LawfulMessage.type_valid version m
      have l2 := LawfulMessage.valid_valid version m
      cases hv : MessageImpl.valid version m with
      | mk e m' =>
      rw [hv] at l1 l2
      simp only at l1 l2
      cases e with
      | some e => simp [encodeMessages, l1, ht, l2]
      | none =>
        simp only
        cases he : MessageImpl.encode m' with
        | error e => simp [encodeMessages, l1, ht, l2, he]
        | ok ns =>
          simp only
          cases hr : encodeMessages version set ms with
          | mk r ms' =>
          rw [hr] at ih
          simp only at ih
          cases r <;> simp [encodeMessages, l1, ht, l2, he, ih]
    · simp only [ne_eq, ht, not_false_eq_true, if_true]
      rw [encodeMessages]
      simp [ht]

theorem encodeMessages_length (version : Nat) (set : MsgType) (ms : List M) :
    (encodeMessages version set ms).2.length = ms.length := by
  induction ms with
  | nil => rfl
  | cons m ms ih =>
    simp only [encodeMessages]
    by_cases ht : MessageImpl.type m = set
    · simp only [ne_eq, ht, not_true_eq_false, if_false]
      cases hv : MessageImpl.valid version m with
      | mk e m' =>
      cases e with
      | some e => simp
      | none =>
        simp only
        cases he : MessageImpl.encode m' with
        | error e => simp
        | ok ns =>
          simp only
          cases hr : encodeMessages version set ms with
          | mk r ms' =>
          rw [hr] at ih
          cases r <;> simpa using ih
    · simp [ht]

theorem encodeMessageSet_again [LawfulMessage M] (version : Nat) (set : MsgType) (ms : List M) :
    encodeMessageSet version set (encodeMessageSet version set ms).2 = encodeMessageSet version set ms := by
  unfold encodeMessageSet
  by_cases h : ms.length > 0
  · have h1 := encodeMessages_again version set ms
    have h2 := encodeMessages_length version set ms
    simp only [h, if_true]
    cases hr : encodeMessages version set ms with
    | mk r ms' =>
    rw [hr] at h1 h2
    simp only at h1 h2
    cases r <;> simp [h1, h2, h]
  · simp [h]

theorem encodeSets_other (version : Nat) (type : MsgSet → MsgType) (ss : List MsgSet) (f : MsgSet → List M)
    (s : MsgSet) (hs : s ∉ ss) : (encodeSets version type ss f).2 s = f s := by
  induction ss generalizing f with
  | nil => rfl
  | cons a ss ih =>
    simp only [List.mem_cons, not_or] at hs
    simp only [encodeSets]
    cases hr : encodeMessageSet version (type a) (f a) with
    | mk r ms =>
    have h1 := ih (Function.update f a ms) hs.2
    rw [Function.update_of_ne hs.1] at h1
    cases r with
    | error e => simp [Function.update_of_ne hs.1]
    | ok ns =>
      simp only
      cases hr2 : encodeSets version type ss (Function.update f a ms) with
      | mk r2 g =>
      rw [hr2] at h1
      cases r2 <;> exact h1

theorem encodeSets_again [LawfulMessage M] (version : Nat) (type : MsgSet → MsgType) (ss : List MsgSet)
    (hn : ss.Nodup) (f : MsgSet → List M) :
    encodeSets version type ss (encodeSets version type ss f).2 = encodeSets version type ss f := by
  induction ss generalizing f with
  | nil => rfl
  | cons a ss ih =>
    rw [List.nodup_cons] at hn
    simp only [encodeSets]
    have ha := encodeMessageSet_again version (type a) (f a)
    cases hr : encodeMessageSet version (type a) (f a) with
    | mk r ms =>
    rw [hr] at ha
    simp only at ha
    cases r with
    | error e => simp [Function.update_self, ha]
    | ok ns =>
      simp only
      have h1 := ih hn.2 (Function.update f a ms)
      have h2 := encodeSets_other version type ss (Function.update f a ms) a hn.1
      rw [Function.update_self] at h2
      cases hr2 : encodeSets version type ss (Function.update f a ms) with
      | mk r2 g =>
      rw [hr2] at h1 h2
      simp only at h1 h2
      have h3 : Function.update g a ms = g := by rw [← h2]; exact Function.update_eq_self _ _
      cases r2 <;> simp [h2, ha, h3, h1]

end

instance : LawfulMessage Message where
  type_valid v m := by cases m <;> rfl
  valid_valid v m := by
    cases m with
    | profileRequest m =>
      simp only [MessageImpl.valid, Message.valid, ProfileRequest.valid]
      cases h : UID.valid m.TrnUID <;> simp [h]
    | _ => rfl

theorem MsgSet.lists_nodup : MsgSet.lists.Nodup := by decide

theorem MsgSet.mem_lists (s : MsgSet) : s ∈ MsgSet.lists ↔ s ≠ .signon := by
  cases s <;> decide

end Ofx
