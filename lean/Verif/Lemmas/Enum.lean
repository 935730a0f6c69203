import Verif.Gen.Enums
import Verif.Lemmas.Leaf
/- Well-formedness of the enumeration tables and its consequences. -/
namespace Ofx
open Spec

/-- Decidable well-formedness of a table. -/
def EnumTable.WF (t : EnumTable) : Bool :=
  t.first == 1 && t.last == t.names.length && t.consts.length == t.names.length &&
  decide t.names.Nodup && t.names.all (fun s => decide (trimSpace s = s)) && !t.names.isEmpty

theorem allEnums_wf : ∀ t ∈ allEnums, t.WF = true := by decide +kernel

structure EnumTable.Good (t : EnumTable) : Prop where
  first : t.first = 1
  last : t.last = t.names.length
  clen : t.consts.length = t.names.length
  nodup : t.names.Nodup
  trim : ∀ s ∈ t.names, trimSpace s = s
  ne : t.names ≠ []

theorem good_of_wf {t : EnumTable} (h : t.WF = true) : t.Good := by
  simp only [EnumTable.WF, Bool.and_eq_true, beq_iff_eq, decide_eq_true_eq, List.all_eq_true,
    Bool.not_eq_true', List.isEmpty_eq_false_iff] at h
  obtain ⟨⟨⟨⟨⟨h1, h2⟩, h3⟩, h4⟩, h5⟩, h6⟩ := h
  exact ⟨h1, h2, h3, h4, h5, h6⟩

theorem good_of_mem {t : EnumTable} (h : t ∈ allEnums) : t.Good := good_of_wf (allEnums_wf t h)

theorem search_some {v : Str} {l : List Str} {i k : Nat} :
    EnumTable.search v l i = some k → i ≤ k ∧ l[k - i]? = some v := by
  induction l generalizing i with
  | nil => intro h; cases h
  | cons s rest ih =>
    intro h
    rw [EnumTable.search] at h
    split at h
    · next hs => cases h; simp [hs]
    · obtain ⟨h1, h2⟩ := ih h
      refine ⟨by omega, ?_⟩
      have : k - i = (k - (i + 1)) + 1 := by omega
      rw [this, List.getElem?_cons_succ]; exact h2

theorem search_of_getElem {v : Str} {l : List Str} (hn : l.Nodup) {i j : Nat}
    (h : l[j]? = some v) : EnumTable.search v l i = some (i + j) := by
  induction l generalizing i j with
  | nil => simp at h
  | cons s rest ih =>
    rw [EnumTable.search]
    cases j with
    | zero => simp at h; simp [h]
    | succ j =>
      rw [List.getElem?_cons_succ] at h
      have hs : s ≠ v := by
        rintro rfl
        exact (List.nodup_cons.mp hn).1 (List.mem_of_getElem? h)
      rw [if_neg hs, ih (List.nodup_cons.mp hn).2 h]
      congr 1; omega

theorem search_none {v : Str} {l : List Str} {i : Nat} (h : v ∉ l) :
    EnumTable.search v l i = none := by
  induction l generalizing i with
  | nil => rfl
  | cons s rest ih =>
    simp only [List.mem_cons, not_or] at h
    rw [EnumTable.search, if_neg (fun e => h.1 e.symm), ih h.2]

namespace EnumTable.Good
variable {t : EnumTable}

theorem valid_iff (g : t.Good) (e : Nat) : t.valid e = true ↔ 1 ≤ e ∧ e ≤ t.names.length := by
  simp [valid, g.first, g.last]

theorem string_valid (g : t.Good) {e : Nat} (h : t.valid e = true) :
    ∃ s, t.names[e - 1]? = some s ∧ t.string e = .ret s := by
  have hv := (g.valid_iff e).mp h
  have hlt : e - 1 < t.names.length := by omega
  refine ⟨t.names[e - 1], List.getElem?_eq_getElem hlt, ?_⟩
  simp [string, h, List.getElem?_eq_getElem hlt]

theorem fromString_iff (g : t.Good) (text : Str) (e : Nat) :
    t.fromString text = (e, none) ↔ t.valid e = true ∧ t.names[e - 1]? = some (trimSpace text) := by
  unfold fromString
  constructor
  · intro h
    split at h
    · next i hi =>
      cases h
      have := (search_some hi).2
      refine ⟨?_, by simpa using this⟩
      rw [g.valid_iff]
      have := (List.getElem?_eq_some_iff.mp this).1
      omega
    · cases h
  · rintro ⟨hv, hn⟩
    rw [search_of_getElem g.nodup (i := 0) hn]
    have := (g.valid_iff e).mp hv
    simp; omega

theorem fromString_error (g : t.Good) (text : Str) (v : Nat) (err : String)
    (h : t.fromString text = (v, some err)) : v = 0 := by
  unfold fromString at h
  split at h
  · cases h
  · cases h; rfl

end EnumTable.Good
end Ofx
