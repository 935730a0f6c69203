import Verif.Lemmas.ReuseLeft
/-
Property C67: the messages of a request after it was used.
-/
namespace Ofx.Props
open Ofx Ofx.Spec

/-- C67: the messages the caller put into the request are there afterwards, in the same sets and in
the same order, each as it was put in or as it is to be sent. -/
theorem C67_messages {r r' : Request Message} (h : Used r r') (s : MsgSet) :
    List.Forall₂ (fun m m' => m' = m ∨ m' = messageSent m) (r.sets s) (r'.sets s) := (used_left h).2.2 s

/-- C67: so a request with no profile request in it holds exactly the messages it held. -/
theorem C67_messages_kept {r r' : Request Message} (h : Used r r') (hp : ∀ s m, m ∈ r.sets s → ∀ p, m ≠ .profileRequest p) :
    r'.sets = r.sets := by
  funext s
  have h1 := C67_messages h s
  have h2 := hp s
  generalize r.sets s = l at h1 h2
  generalize r'.sets s = l' at h1
  induction h1 with
  | nil => rfl
  | @cons m m' l l' hm _ ih =>
    have hs : messageSent m = m := by
      cases m with
      | profileRequest p => exact absurd rfl (h2 _ (List.mem_cons_self ..) p)
      | _ => rfl
    rw [ih fun m hm => h2 m (List.mem_cons_of_mem _ hm)]
    rcases hm with rfl | rfl
    · rfl
    · rw [hs]

/-- A request that was sent and then marshalled has its messages. -/
example (net : Net) (tr : Trace) (s : MsgSet) :
    List.Forall₂ (fun m m' => m' = m ∨ m' = messageSent m) (sampleRequest.sets s)
      (((Client.vanguard sampleClient).requestNoParse net sampleRequest tr).2.1.marshal.2.sets s) :=
  C67_messages (.marshal (.sentNoParse net _ tr .fresh)) s

/-- A profile request is changed by sending it, unless it asked for no client routing. -/
example (p : ProfileRequest) (h : p.ClientRouting ≠ "NONE".toList) : messageSent (.profileRequest p) ≠ .profileRequest p := by
  intro he
  injection he with he
  exact h (congrArg ProfileRequest.ClientRouting he).symm

end Ofx.Props
