import Verif.Lemmas.DateTextIff
/-
Property C74: exactly which texts are dates.
-/
namespace Ofx.Props
open Ofx Spec

/-- C74: the text of a date element is read as t exactly if it denotes the instant and the offset of t,
and the name of t's zone is the one it denotes (or, if it names none, that of the local zone of
the machine, provided the offsets agree). -/
theorem C74_accepted_iff (loc : LocalZone) (text : Str) (t : GoTime) :
    Date.unmarshal loc text = .ok t ↔ ∃ name, DateText text t.ns t.off name ∧ t.zone = zoneShown loc t.ns t.off name :=
  dateText_iff loc text t

/-- C74: a text that denotes no date is an error. -/
theorem C74_rejected_iff (loc : LocalZone) (text : Str) :
    (∃ e, Date.unmarshal loc text = .error e) ↔ ¬ ∃ i o name, DateText text i o name := by
  constructor
  · rintro ⟨e, he⟩ ⟨i, o, name, h⟩
    have := (C74_accepted_iff loc text ⟨i, zoneShown loc i o name, o⟩).mpr ⟨name, h, rfl⟩
    rw [he] at this; cases this
  · intro h
    cases hu : Date.unmarshal loc text with
    | error e => exact ⟨e, rfl⟩
    | ok t =>
      obtain ⟨name, hn, -⟩ := (C74_accepted_iff loc text t).mp hu
      exact absurd ⟨t.ns, t.off, name, hn⟩ h

/-- C74: a text denotes at most one instant, offset and zone name. -/
theorem C74_unambiguous (text : Str) (i i' o o' : Int) (n n' : Str) (h : DateText text i o n) (h' : DateText text i' o' n') :
    i = i' ∧ o = o' ∧ n = n' := by
  have key : ∀ loc : LocalZone, i = i' ∧ o = o' ∧ zoneShown loc i o n = zoneShown loc i' o' n' := by
    intro loc
    have h1 := (C74_accepted_iff loc text ⟨i, zoneShown loc i o n, o⟩).mpr ⟨n, h, rfl⟩
    have h2 := (C74_accepted_iff loc text ⟨i', zoneShown loc i' o' n', o'⟩).mpr ⟨n', h', rfl⟩
    rw [h1] at h2
    simp only [Except.ok.injEq, GoTime.mk.injEq] at h2
    exact ⟨h2.1, h2.2.2, h2.2.1⟩
  obtain ⟨rfl, rfl, -⟩ := key (fun _ => ([], 0))
  refine ⟨rfl, rfl, ?_⟩
  have hz : ∀ m : Str, zoneShown (fun _ => (m, o)) i o n = zoneShown (fun _ => (m, o)) i o n' := fun m => (key _).2.2
  have h0 := hz []
  have hx := hz ['?']
  unfold zoneShown at h0 hx
  by_cases hn : n = []
  · by_cases hn' : n' = []
    · rw [hn, hn']
    · simp [hn, hn'] at h0
  · by_cases hn' : n' = []
    · simp [hn, hn'] at h0
    · simpa [hn, hn'] using h0

/-- C74: the instant and the offset read do not depend on the machine's local zone. -/
theorem C74_machine (loc loc' : LocalZone) (text : Str) (t : GoTime) (h : Date.unmarshal loc text = .ok t) :
    ∃ t', Date.unmarshal loc' text = .ok t' ∧ t'.ns = t.ns ∧ t'.off = t.off := by
  obtain ⟨name, h1, -⟩ := (C74_accepted_iff loc text t).mp h
  exact ⟨⟨t.ns, zoneShown loc' t.ns t.off name, t.off⟩, (C74_accepted_iff loc' text _).mpr ⟨name, h1, rfl⟩, rfl, rfl⟩

/-- A date with a comma, seven digits of a fraction, blanks before a zone west of Greenwich, and white space and garbage around. -/
theorem date_fraction : DateText "\n20240229134501,1234567  [-5.50:EST ]x".toList
    ((⟨2024, 2, 29, 13, 45, 1, 0⟩ : Civil).instant (-19800) + 123456700) (-19800) "EST".toList := by
  refine ⟨"\n20240229134501,1234567  [-5.50:EST ".toList, "]x".toList, "20240229134501,1234567  [-5.50:EST".toList,
    ⟨2024, 2, 29, 13, 45, 1, 0⟩, 123456700, rfl, by decide, Or.inr rfl,
    ⟨['\n'], [' '], by decide, by decide, rfl, by decide, by decide⟩, by decide, rfl, Or.inr ?_, rfl⟩
  refine ⟨"20240229134501,1234567".toList, "  ".toList, "[-5.50:EST".toList, ⟨true, 5, 50, "EST".toList⟩, rfl, ?_, by decide, ?_, by decide,
    Or.inr (by decide), by decide, rfl⟩
  · exact ⟨"2024".toList, "02".toList, "29".toList, "134501,1234567".toList, rfl, by decide, by decide, by decide,
      Or.inr (Or.inr (Or.inr ⟨"13".toList, "45".toList, "01".toList, ",1234567".toList, rfl, by decide, by decide, by decide,
        Or.inr ⟨',', "1234567".toList, rfl, Or.inr rfl, Or.inl ⟨by decide, by decide⟩⟩⟩))⟩
  · exact ⟨"-".toList, "5".toList, ".50".toList, ":EST".toList, rfl, Or.inr ⟨rfl, rfl⟩, by decide, by decide, Or.inr ⟨"50".toList, rfl, by decide⟩,
      Or.inr ⟨rfl, by decide⟩⟩

/-- A date with a one-digit hour. -/
theorem date_oneDigit : DateText "202402297".toList ((⟨2024, 2, 29, 7, 0, 0, 0⟩ : Civil).instant 0 + (0 : Nat)) 0 "GMT".toList := by
  refine ⟨"202402297".toList, [], "202402297".toList, ⟨2024, 2, 29, 7, 0, 0, 0⟩, 0, rfl, by decide, Or.inl rfl,
    ⟨[], [], by decide, by decide, rfl, by decide, by decide⟩, by decide, rfl, Or.inl ⟨?_, rfl, rfl⟩, rfl⟩
  exact ⟨"2024".toList, "02".toList, "29".toList, "7".toList, rfl, by decide, by decide, by decide,
    Or.inr (Or.inl ⟨Or.inl (by decide), rfl, rfl, rfl⟩)⟩

example (loc : LocalZone) : Date.unmarshal loc "\n20240229134501,1234567  [-5.50:EST ]x".toList =
    .ok ⟨(⟨2024, 2, 29, 13, 45, 1, 0⟩ : Civil).instant (-19800) + 123456700, "EST".toList, -19800⟩ :=
  (C74_accepted_iff loc _ _).mpr ⟨"EST".toList, date_fraction, rfl⟩

/-- C74: texts outside the OFX notation are accepted: an hour of one digit, a comma, a fraction of
seven digits, blanks before the zone. -/
theorem C74_beyond_ofx (loc : LocalZone) :
    (∃ t, Date.unmarshal loc "202402297".toList = .ok t) ∧
    (∃ t, Date.unmarshal loc "\n20240229134501,1234567  [-5.50:EST ]x".toList = .ok t) :=
  ⟨⟨_, (C74_accepted_iff loc _ ⟨_, _, _⟩).mpr ⟨_, date_oneDigit, rfl⟩⟩, ⟨_, (C74_accepted_iff loc _ ⟨_, _, _⟩).mpr ⟨_, date_fraction, rfl⟩⟩⟩

/-- The 30th of February is no date, in any notation. -/
example : ¬ ∃ i o n, DateText "20240230".toList i o n :=
  (C74_rejected_iff (fun _ => ([], 0)) _).mp ⟨"OFX: Couldn't parse date", by decide⟩

end Ofx.Props
