import Verif.Spec.Meaning
import Verif.Props.Reuse
/-
What a request holds after it was used (C67).
-/
namespace Ofx
open Spec

/-- The caller's message, or that message as it was sent. -/
def MsgLeft (m m' : Message) : Prop := m' = m ∨ m' = messageSent m

theorem MsgLeft.refl (m : Message) : MsgLeft m m := .inl rfl

theorem messageSent_twice (m : Message) : messageSent (messageSent m) = messageSent m := by cases m <;> rfl

theorem MsgLeft.trans {a b c : Message} (h : MsgLeft a b) (h' : MsgLeft b c) : MsgLeft a c := by
  rcases h with rfl | rfl
  · exact h'
  · rcases h' with rfl | rfl
    · exact .inr rfl
    · exact .inr (messageSent_twice a)

theorem msgLeft_valid (v : Nat) (m : Message) : MsgLeft m (m.valid v).2 := by
  cases m with
  | profileRequest m =>
    simp only [Message.valid, ProfileRequest.valid]
    cases h : UID.valid m.TrnUID
    · exact .inr (by simp [messageSent])
    · exact .inl (by simp)
  | _ => exact .inl rfl

theorem encodeMessages_leaves (version : Nat) (set : MsgType) (ms : List Message) :
    List.Forall₂ MsgLeft ms (encodeMessages version set ms).2 := by
  induction ms with
  | nil => exact .nil
  | cons m ms ih =>
    have hrefl : List.Forall₂ MsgLeft ms ms := List.forall₂_same.mpr fun m _ => MsgLeft.refl m
    simp only [encodeMessages]
    by_cases ht : MessageImpl.type m = set
    · simp only [ne_eq, ht, not_true_eq_false, if_false]
      have hm : MsgLeft m (MessageImpl.valid version m).2 := msgLeft_valid version m
      cases hv : MessageImpl.valid version m with
      | mk e m' =>
      rw [hv] at hm
      cases e with
      | some e => exact .cons hm hrefl
      | none =>
        simp only
        cases he : MessageImpl.encode m' with
        | error e => exact .cons hm hrefl
        | ok ns =>
          simp only
          cases hr : encodeMessages version set ms with
          | mk r ms' =>
          rw [hr] at ih
          cases r <;> exact .cons hm ih
    · simp only [ne_eq, ht, not_false_eq_true, if_true]
      exact .cons (MsgLeft.refl m) hrefl

theorem encodeMessageSet_leaves (version : Nat) (set : MsgType) (ms : List Message) :
    List.Forall₂ MsgLeft ms (encodeMessageSet version set ms).2 := by
  unfold encodeMessageSet
  by_cases h : ms.length > 0
  · rw [if_pos h]
    have := encodeMessages_leaves version set ms
    cases hr : encodeMessages version set ms with
    | mk r ms' => rw [hr] at this; cases r <;> exact this
  · rw [if_neg h]
    exact List.forall₂_same.mpr fun m _ => MsgLeft.refl m

def SetsLeft (f g : MsgSet → List Message) : Prop := ∀ s, List.Forall₂ MsgLeft (f s) (g s)

theorem SetsLeft.refl (f : MsgSet → List Message) : SetsLeft f f :=
  fun _ => List.forall₂_same.mpr fun m _ => MsgLeft.refl m

theorem forall₂_left_trans {l₁ l₂ l₃ : List Message} (h : List.Forall₂ MsgLeft l₁ l₂) (h' : List.Forall₂ MsgLeft l₂ l₃) :
    List.Forall₂ MsgLeft l₁ l₃ := by
  induction h generalizing l₃ with
  | nil => cases h'; exact .nil
  | cons a _ ih => cases h' with | cons b hb => exact .cons (a.trans b) (ih hb)

theorem SetsLeft.trans {f g h : MsgSet → List Message} (a : SetsLeft f g) (b : SetsLeft g h) : SetsLeft f h :=
  fun s => forall₂_left_trans (a s) (b s)

theorem setsLeft_update {f : MsgSet → List Message} {s : MsgSet} {ms : List Message} (h : List.Forall₂ MsgLeft (f s) ms) :
    SetsLeft f (Function.update f s ms) := by
  intro t
  by_cases ht : t = s
  · subst ht; rw [Function.update_self]; exact h
  · rw [Function.update_of_ne ht]; exact SetsLeft.refl f t

theorem encodeSets_leaves (version : Nat) (type : MsgSet → MsgType) (ss : List MsgSet) (f : MsgSet → List Message) :
    SetsLeft f (encodeSets version type ss f).2 := by
  induction ss generalizing f with
  | nil => exact SetsLeft.refl f
  | cons s ss ih =>
    simp only [encodeSets]
    have h := encodeMessageSet_leaves version (type s) (f s)
    cases hr : encodeMessageSet version (type s) (f s) with
    | mk r ms =>
    rw [hr] at h
    cases r with
    | error e => exact setsLeft_update h
    | ok ns =>
      simp only
      have h' := (setsLeft_update h).trans (ih (Function.update f s ms))
      cases hr2 : encodeSets version type ss (Function.update f s ms) with
      | mk r2 g => rw [hr2] at h'; cases r2 <;> exact h'

def ReqLeft (r r' : Request Message) : Prop := r'.url = r.url ∧ SignonSame r.signon r'.signon ∧ SetsLeft r.sets r'.sets

theorem ReqLeft.trans {a b c : Request Message} (h : ReqLeft a b) (h' : ReqLeft b c) : ReqLeft a c :=
  ⟨h'.1.trans h.1, h.2.1.trans h'.2.1, h.2.2.trans h'.2.2⟩

theorem reqLeft_fields (now : GoTime) (c : BasicClient) (r : Request Message) : ReqLeft r (r.setClientFields now c) :=
  ⟨rfl, ⟨now, c.id, c.version, .inl rfl⟩, SetsLeft.refl _⟩

theorem reqLeft_marshal (r : Request Message) : ReqLeft r r.marshal.2 := by
  have h1 := signonSame_valid r.version r.signon
  have h2 := encodeSets_leaves r.version .rq MsgSet.lists r.sets
  unfold Request.marshal
  cases hv : r.signon.valid r.version with
  | mk e so =>
  rw [hv] at h1
  cases e with
  | some e => exact ⟨rfl, h1, SetsLeft.refl _⟩
  | none =>
    simp only
    cases encodeAs "SONRQ".toList so with
    | error e => exact ⟨rfl, h1, SetsLeft.refl _⟩
    | ok ns =>
      simp only
      cases hs : encodeSets r.version .rq MsgSet.lists r.sets with
      | mk res f => rw [hs] at h2; cases res <;> exact ⟨rfl, h1, h2⟩

theorem requestNoParse_leaves (net : Net) (c : Client) (r : Request Message) (tr : Trace) :
    ReqLeft r (c.requestNoParse net r tr).2.1 := by
  have h1 := (reqLeft_fields net.now c.bc r).trans (reqLeft_marshal (r.setClientFields net.now c.bc))
  unfold Client.requestNoParse
  cases hm : (r.setClientFields net.now c.bc).marshal with
  | mk res q =>
  rw [hm] at h1
  cases res with
  | error e => exact h1
  | ok d =>
    simp only
    cases hr : c.rawRequest net q.url d.bytes tr with
    | mk res tr2 =>
    cases c with
    | basic bc => exact h1
    | discover bc => exact h1
    | vanguard bc =>
      simp only
      cases res.1 with
      | none => exact h1
      | some resp =>
        simp only
        by_cases hc : resp.contentLength ≤ 0 ∧ resp.cookies.length > 0
        · rw [if_pos hc]
          have h2 := h1.trans (reqLeft_marshal q)
          cases hq : q.marshal with
          | mk res2 q2 =>
          rw [hq] at h2
          cases res2 <;> exact h2
        · rw [if_neg hc]; exact h1

theorem used_left {r r' : Request Message} (h : Used r r') : ReqLeft r r' := by
  induction h with
  | fresh => exact ⟨rfl, ⟨r.signon.DtClient, r.signon.AppID, r.signon.AppVer, .inl rfl⟩, SetsLeft.refl _⟩
  | setClientFields now c _ ih => exact ih.trans (reqLeft_fields now c _)
  | marshal _ ih => exact ih.trans (reqLeft_marshal _)
  | sentNoParse net c tr _ ih => exact ih.trans (requestNoParse_leaves net c _ tr)
  | sent env nt net c tr _ ih => rw [Props.request_left]; exact ih.trans (requestNoParse_leaves net c _ tr)

end Ofx
