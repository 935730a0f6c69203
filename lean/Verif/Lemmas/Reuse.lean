import Verif.Props.Marshal
import Mathlib.Data.List.Forall2
import Verif.Model.Client
/-
What sending a request leaves behind in it, for C67.
-/
namespace Ofx
open Props Spec

/-- Messages that no version tells apart. -/
def MsgSame (m m' : Message) : Prop := m'.type = m.type ∧ ∀ v, m'.valid v = m.valid v

theorem MsgSame.refl (m : Message) : MsgSame m m := ⟨rfl, fun _ => rfl⟩

theorem MsgSame.trans {a b c : Message} (h : MsgSame a b) (h' : MsgSame b c) : MsgSame a c :=
  ⟨h'.1.trans h.1, fun v => (h'.2 v).trans (h.2 v)⟩

theorem MsgSame.symm {a b : Message} (h : MsgSame a b) : MsgSame b a := ⟨h.1.symm, fun v => (h.2 v).symm⟩

theorem msgSame_valid (v : Nat) (m : Message) : MsgSame m (m.valid v).2 := by
  refine ⟨LawfulMessage.type_valid (M := Message) v m, fun v' => ?_⟩
  cases m with
  | profileRequest m =>
    simp only [Message.valid, ProfileRequest.valid]
    cases h : UID.valid m.TrnUID <;> simp [h]
  | _ => rfl

theorem encodeMessages_left (version : Nat) (set : MsgType) (ms : List Message) :
    List.Forall₂ MsgSame ms (encodeMessages version set ms).2 := by
  induction ms with
  | nil => exact .nil
  | cons m ms ih =>
    have hrefl : List.Forall₂ MsgSame ms ms := List.forall₂_same.mpr fun m _ => MsgSame.refl m
    simp only [encodeMessages]
    by_cases ht : MessageImpl.type m = set
    · simp only [ne_eq, ht, not_true_eq_false, if_false]
      have hm : MsgSame m (MessageImpl.valid version m).2 := msgSame_valid version m
      cases hv : MessageImpl.valid version m with
      | mk e m' =>
      rw [hv] at hm
      cases e with
      | some e => exact .cons hm hrefl
      | none =>
        simp only
        cases he : MessageImpl.encode m' with
        | error e => exact .cons hm hrefl
        | ok ns =>
          simp only
          cases hr : encodeMessages version set ms with
          | mk r ms' =>
          rw [hr] at ih
          cases r <;> exact .cons hm ih
    · simp only [ne_eq, ht, not_false_eq_true, if_true]
      exact .cons (MsgSame.refl m) hrefl

theorem encodeMessages_same (version : Nat) (set : MsgType) {ms ms' : List Message} (h : List.Forall₂ MsgSame ms ms') :
    (encodeMessages version set ms').1 = (encodeMessages version set ms).1 := by
  induction h with
  | nil => rfl
  | @cons m m' ms ms' hm _ ih =>
    have h1 : MessageImpl.type m' = MessageImpl.type m := hm.1
    have h2 : MessageImpl.valid version m' = MessageImpl.valid version m := by
      simp only [MessageImpl.valid, hm.2 version]
    simp only [encodeMessages, h1, h2]
    by_cases ht : MessageImpl.type m = set
    · simp only [ne_eq, ht, not_true_eq_false, if_false]
      cases hv : MessageImpl.valid version m with
      | mk e m'' =>
      cases e with
      | some e => rfl
      | none =>
        simp only
        cases he : MessageImpl.encode m'' with
        | error e => rfl
        | ok ns =>
          simp only
          cases hr : encodeMessages version set ms with
          | mk r _ =>
          cases hr' : encodeMessages version set ms' with
          | mk r' _ =>
          rw [hr, hr'] at ih
          simp only at ih
          subst ih
          cases r' <;> rfl
    · simp only [ne_eq, ht, not_false_eq_true, if_true]

theorem encodeMessageSet_left (version : Nat) (set : MsgType) (ms : List Message) :
    List.Forall₂ MsgSame ms (encodeMessageSet version set ms).2 := by
  unfold encodeMessageSet
  by_cases h : ms.length > 0
  · rw [if_pos h]
    have := encodeMessages_left version set ms
    cases hr : encodeMessages version set ms with
    | mk r ms' => rw [hr] at this; cases r <;> exact this
  · rw [if_neg h]
    exact List.forall₂_same.mpr fun m _ => MsgSame.refl m

theorem encodeMessageSet_same (version : Nat) (set : MsgType) {ms ms' : List Message} (h : List.Forall₂ MsgSame ms ms') :
    (encodeMessageSet version set ms').1 = (encodeMessageSet version set ms).1 := by
  unfold encodeMessageSet
  rw [h.length_eq]
  by_cases hl : ms'.length > 0
  · rw [if_pos hl, if_pos hl]
    have := encodeMessages_same version set h
    cases hr : encodeMessages version set ms with
    | mk r _ =>
    cases hr' : encodeMessages version set ms' with
    | mk r' _ =>
    rw [hr, hr'] at this
    simp only at this
    subst this
    cases r' <;> rfl
  · rw [if_neg hl, if_neg hl]

/-- Message lists that no version tells apart. -/
def SetsSame (f g : MsgSet → List Message) : Prop := ∀ s, List.Forall₂ MsgSame (f s) (g s)

theorem SetsSame.refl (f : MsgSet → List Message) : SetsSame f f :=
  fun _ => List.forall₂_same.mpr fun m _ => MsgSame.refl m

theorem forall₂_trans {l₁ l₂ l₃ : List Message} (h : List.Forall₂ MsgSame l₁ l₂) (h' : List.Forall₂ MsgSame l₂ l₃) :
    List.Forall₂ MsgSame l₁ l₃ := by
  induction h generalizing l₃ with
  | nil => cases h'; exact .nil
  | cons a _ ih => cases h' with | cons b hb => exact .cons (a.trans b) (ih hb)

theorem forall₂_symm {l₁ l₂ : List Message} (h : List.Forall₂ MsgSame l₁ l₂) : List.Forall₂ MsgSame l₂ l₁ := by
  induction h with
  | nil => exact .nil
  | cons a _ ih => exact .cons a.symm ih

theorem SetsSame.trans {f g h : MsgSet → List Message} (a : SetsSame f g) (b : SetsSame g h) : SetsSame f h :=
  fun s => forall₂_trans (a s) (b s)

theorem setsSame_update {f : MsgSet → List Message} {s : MsgSet} {ms : List Message} (h : List.Forall₂ MsgSame (f s) ms) :
    SetsSame f (Function.update f s ms) := by
  intro t
  by_cases ht : t = s
  · subst ht; rw [Function.update_self]; exact h
  · rw [Function.update_of_ne ht]; exact SetsSame.refl f t

theorem encodeSets_left (version : Nat) (type : MsgSet → MsgType) (ss : List MsgSet) (f : MsgSet → List Message) :
    SetsSame f (encodeSets version type ss f).2 := by
  induction ss generalizing f with
  | nil => exact SetsSame.refl f
  | cons s ss ih =>
    simp only [encodeSets]
    have h := encodeMessageSet_left version (type s) (f s)
    cases hr : encodeMessageSet version (type s) (f s) with
    | mk r ms =>
    rw [hr] at h
    cases r with
    | error e => exact setsSame_update h
    | ok ns =>
      simp only
      have h' := (setsSame_update h).trans (ih (Function.update f s ms))
      cases hr2 : encodeSets version type ss (Function.update f s ms) with
      | mk r2 g => rw [hr2] at h'; cases r2 <;> exact h'

theorem encodeSets_same (version : Nat) (type : MsgSet → MsgType) (ss : List MsgSet) {f g : MsgSet → List Message}
    (h : SetsSame f g) : (encodeSets version type ss g).1 = (encodeSets version type ss f).1 := by
  induction ss generalizing f g with
  | nil => rfl
  | cons s ss ih =>
    simp only [encodeSets]
    have h1 := encodeMessageSet_same version (type s) (h s)
    have hf := encodeMessageSet_left version (type s) (f s)
    have hg := encodeMessageSet_left version (type s) (g s)
    have hfg := h s
    cases hr : encodeMessageSet version (type s) (f s) with
    | mk r ms =>
    cases hr' : encodeMessageSet version (type s) (g s) with
    | mk r' ms' =>
    rw [hr, hr'] at h1
    simp only at h1
    subst h1
    cases r' with
    | error e => rfl
    | ok ns =>
      simp only
      have h2 : SetsSame (Function.update f s ms) (Function.update g s ms') := by
        rw [hr] at hf
        rw [hr'] at hg
        intro t
        by_cases ht : t = s
        · subst ht
          rw [Function.update_self, Function.update_self]
          exact forall₂_trans (forall₂_symm hf) (forall₂_trans hfg hg)
        · rw [Function.update_of_ne ht, Function.update_of_ne ht]; exact h t
      have h3 := ih h2
      cases hr2 : encodeSets version type ss (Function.update f s ms) with
      | mk r2 _ =>
      cases hr3 : encodeSets version type ss (Function.update g s ms') with
      | mk r3 _ =>
      rw [hr2, hr3] at h3
      simp only at h3
      subst h3
      cases r3 <;> rfl

/-- Login data that no client tells apart: all but the date, the application and an empty language
that may have become ENG. -/
def SignonSame (a b : SignonRequest) : Prop :=
  ∃ date id ver, b = { a with DtClient := date, AppID := id, AppVer := ver } ∨
    (a.Language = [] ∧ b = { a with DtClient := date, AppID := id, AppVer := ver, Language := "ENG".toList })

theorem signon_eng (v : Nat) (so : SignonRequest) (hl : so.Language = []) :
    (SignonRequest.valid v { so with Language := "ENG".toList }).1 = (so.valid v).1 ∧
    ((so.valid v).1 = none → (SignonRequest.valid v { so with Language := "ENG".toList }).2 = (so.valid v).2) := by
  have h4 : blen "ENG".toList = 3 := by decide
  have h5 : blen so.Language = 0 := blen_zero.mpr hl
  unfold SignonRequest.valid
  simp only [h4, h5]
  split_ifs <;> simp_all

theorem SignonSame.trans {a b c : SignonRequest} (h : SignonSame a b) (h' : SignonSame b c) : SignonSame a c := by
  obtain ⟨d, i, v, h⟩ := h
  obtain ⟨d', i', v', h'⟩ := h'
  refine ⟨d', i', v', ?_⟩
  rcases h with rfl | ⟨h0, rfl⟩
  · exact h'
  · rcases h' with rfl | ⟨h1, rfl⟩
    · exact .inr ⟨h0, rfl⟩
    · exact absurd (show "ENG".toList = [] from h1) (by decide)

theorem signonSame_valid (v : Nat) (so : SignonRequest) : SignonSame so (so.valid v).2 := by
  rcases C23_signon_changes_only_language v so with h | ⟨h1, h2⟩
  · exact ⟨so.DtClient, so.AppID, so.AppVer, .inl h⟩
  · exact ⟨so.DtClient, so.AppID, so.AppVer, .inr ⟨h1, h2⟩⟩

/-- Requests that no client tells apart. -/
def ReqSame (r r' : Request Message) : Prop := r'.url = r.url ∧ SignonSame r.signon r'.signon ∧ SetsSame r.sets r'.sets

theorem ReqSame.trans {a b c : Request Message} (h : ReqSame a b) (h' : ReqSame b c) : ReqSame a c :=
  ⟨h'.1.trans h.1, h.2.1.trans h'.2.1, h.2.2.trans h'.2.2⟩

theorem reqSame_fields (now : GoTime) (c : BasicClient) (r : Request Message) : ReqSame r (r.setClientFields now c) :=
  ⟨rfl, ⟨now, c.id, c.version, .inl rfl⟩, SetsSame.refl _⟩

theorem reqSame_marshal (r : Request Message) : ReqSame r r.marshal.2 := by
  have h1 := signonSame_valid r.version r.signon
  have h2 := encodeSets_left r.version .rq MsgSet.lists r.sets
  unfold Request.marshal
  cases hv : r.signon.valid r.version with
  | mk e so =>
  rw [hv] at h1
  cases e with
  | some e => exact ⟨rfl, h1, SetsSame.refl _⟩
  | none =>
    simp only
    cases encodeAs "SONRQ".toList so with
    | error e => exact ⟨rfl, h1, SetsSame.refl _⟩
    | ok ns =>
      simp only
      cases hs : encodeSets r.version .rq MsgSet.lists r.sets with
      | mk res f => rw [hs] at h2; cases res <;> exact ⟨rfl, h1, h2⟩

/-- Requests that no client tells apart give the same document or error. -/
theorem marshal_same {r r' : Request Message} (h : ReqSame r r') (now : GoTime) (c : BasicClient) :
    (r'.setClientFields now c).marshal.1 = (r.setClientFields now c).marshal.1 := by
  obtain ⟨-, ⟨d, i, w, hs⟩, hm⟩ := h
  have h1 : ((r'.setClientFields now c).signon.valid c.ofxVersion).1 = ((r.setClientFields now c).signon.valid c.ofxVersion).1 ∧
      (((r.setClientFields now c).signon.valid c.ofxVersion).1 = none →
        ((r'.setClientFields now c).signon.valid c.ofxVersion).2 = ((r.setClientFields now c).signon.valid c.ofxVersion).2) := by
    rcases hs with hs | ⟨h0, hs⟩
    · have : (r'.setClientFields now c).signon = (r.setClientFields now c).signon := by
        unfold Request.setClientFields; rw [hs]
      rw [this]; exact ⟨rfl, fun _ => rfl⟩
    · have : (r'.setClientFields now c).signon = { (r.setClientFields now c).signon with Language := "ENG".toList } := by
        unfold Request.setClientFields; rw [hs]
      rw [this]
      exact signon_eng _ _ h0
  have h2 := encodeSets_same c.ofxVersion .rq MsgSet.lists (f := (r.setClientFields now c).sets) (g := (r'.setClientFields now c).sets) hm
  unfold Request.marshal
  have hv : (r.setClientFields now c).version = c.ofxVersion := rfl
  have hv' : (r'.setClientFields now c).version = c.ofxVersion := rfl
  have hi : (r'.setClientFields now c).indent = (r.setClientFields now c).indent := rfl
  have hc : (r'.setClientFields now c).carriageReturn = (r.setClientFields now c).carriageReturn := rfl
  rw [hv, hv', hi, hc]
  generalize (r.setClientFields now c) = q at *
  generalize (r'.setClientFields now c) = q' at *
  cases e1 : q.signon.valid c.ofxVersion with
  | mk e so =>
  cases e2 : q'.signon.valid c.ofxVersion with
  | mk e' so' =>
  rw [e1, e2] at h1
  simp only at h1
  obtain ⟨rfl, h1⟩ := h1
  cases e' with
  | some e => rfl
  | none =>
    obtain rfl := h1 rfl
    simp only
    cases encodeAs "SONRQ".toList so' with
    | error e => rfl
    | ok ns =>
      simp only
      cases e3 : encodeSets c.ofxVersion .rq MsgSet.lists q.sets with
      | mk res f =>
      cases e4 : encodeSets c.ofxVersion .rq MsgSet.lists q'.sets with
      | mk res' f' =>
      rw [e3, e4] at h2
      simp only at h2
      subst h2
      cases res' <;> rfl

end Ofx
