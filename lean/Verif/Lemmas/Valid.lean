import Verif.Model.Valid
import Verif.Spec.Valid
import Verif.Lemmas.Enum
import Verif.Lemmas.Leaf
/-
Helper lemmas for the validation properties.
-/
namespace Ofx
open Spec

theorem blen_bytes (s : Str) : blen s = bytes s := blen_eq_utf8ByteSize s

theorem blen_zero {s : Str} : blen s = 0 ↔ s = [] := by
  cases s with
  | nil => simp [blen, toBytes]
  | cons c s =>
    have h : 0 < (String.utf8EncodeChar c).length := String.length_utf8EncodeChar c ▸ c.utf8Size_pos
    have h2 : blen (c :: s) ≠ 0 := by
      simp only [blen, toBytes, List.flatMap_cons, List.length_append]
      omega
    simp [h2]

theorem blen_pos {s : Str} : 0 < blen s ↔ s ≠ [] := by
  rw [ne_eq, ← blen_zero]; omega

theorem bytes_zero {s : Str} : bytes s = 0 ↔ s = [] := by rw [← blen_bytes, blen_zero]

/-- A name of the table is printed exactly for the value with that index. -/
theorem named_iff {t : EnumTable} (g : t.Good) (hn : ∀ s ∈ t.names, s.head? ≠ some 'i') {n : String}
    (hm : n.toList ∈ t.names) {e : Nat} :
    Named t e n ↔ t.valid e = true ∧ t.names[e - 1]? = some n.toList := by
  unfold Named
  cases hv : t.valid e with
  | true =>
    obtain ⟨s, h1, h2⟩ := g.string_valid hv
    rw [h1, h2]
    simp
  | false =>
    simp only [EnumTable.string, hv]
    constructor
    · intro h
      exfalso
      simp only [Bool.false_eq_true, if_false, Outcome.ret.injEq] at h
      apply hn _ hm
      rw [← h]
      simp
    · intro h; exact absurd h.1 (by simp)

/-- Naming one of all names is validity. -/
theorem named_valid {t : EnumTable} (g : t.Good) (hn : ∀ s ∈ t.names, s.head? ≠ some 'i') {L : List String}
    (hL : L.map String.toList = t.names) {e : Nat} :
    (∃ n ∈ L, Named t e n) ↔ t.valid e = true := by
  constructor
  · rintro ⟨n, hn1, hn2⟩
    exact ((named_iff g hn (by rw [← hL]; exact List.mem_map_of_mem hn1)).mp hn2).1
  · intro hv
    obtain ⟨s, h1, h2⟩ := g.string_valid hv
    have : s ∈ L.map String.toList := by rw [hL]; exact List.mem_of_getElem? h1
    obtain ⟨n, hn1, rfl⟩ := List.mem_map.mp this
    exact ⟨n, hn1, h2⟩

theorem acctType_named {e : Nat} : (∃ n ∈ ["CHECKING", "SAVINGS", "MONEYMRKT", "CREDITLINE", "CD"],
    Named enumAcctType e n) ↔ enumAcctType.valid e = true :=
  named_valid (good_of_mem (by decide)) (by decide) (by decide)

theorem correctAction_named {e : Nat} : (Named enumCorrectAction e "DELETE" ∨ Named enumCorrectAction e "REPLACE") ↔
    enumCorrectAction.valid e = true := by
  have := named_valid (t := enumCorrectAction) (L := ["DELETE", "REPLACE"]) (e := e) (good_of_mem (by decide)) (by decide) (by decide)
  simpa using this

theorem trnType_named {e : Nat} : (∃ n ∈ ["CREDIT", "DEBIT", "INT", "DIV", "FEE", "SRVCHG", "DEP", "ATM", "POS", "XFER",
    "CHECK", "PAYMENT", "CASH", "DIRECTDEP", "DIRECTDEBIT", "REPEATPMT", "OTHER"], Named enumTrnType e n) ↔
    enumTrnType.valid e = true ∧ e ≠ trnTypeHold := by
  have g : enumTrnType.Good := good_of_mem (by decide)
  have hi : ∀ s ∈ enumTrnType.names, s.head? ≠ some 'i' := by decide
  have hhold : enumTrnType.names[trnTypeHold - 1]? = some "HOLD".toList := by decide
  constructor
  · rintro ⟨n, hn1, hn2⟩
    have hm : n.toList ∈ enumTrnType.names ∧ n.toList ≠ "HOLD".toList :=
      (show ∀ n ∈ ["CREDIT", "DEBIT", "INT", "DIV", "FEE", "SRVCHG", "DEP", "ATM", "POS", "XFER",
        "CHECK", "PAYMENT", "CASH", "DIRECTDEP", "DIRECTDEBIT", "REPEATPMT", "OTHER"],
        n.toList ∈ enumTrnType.names ∧ n.toList ≠ "HOLD".toList by decide) n hn1
    obtain ⟨h1, h2⟩ := (named_iff g hi hm.1).mp hn2
    refine ⟨h1, ?_⟩
    rintro rfl
    rw [hhold] at h2
    exact hm.2 (Option.some.inj h2).symm
  · rintro ⟨hv, hne⟩
    obtain ⟨s, h1, h2⟩ := g.string_valid hv
    have hb := (g.valid_iff e).mp hv
    have hs : s ≠ "HOLD".toList := by
      intro he
      subst he
      have hlen : enumTrnType.names.length = 18 := by decide
      have : e - 1 = trnTypeHold - 1 :=
        (List.getElem?_inj (i := e - 1) (by rw [hlen]; rw [hlen] at hb; omega) g.nodup).mp (h1.trans hhold.symm)
      apply hne
      unfold trnTypeHold at this ⊢
      omega
    have hm := List.mem_of_getElem? h1
    have key : ∀ s ∈ enumTrnType.names, s ≠ "HOLD".toList →
        ∃ n ∈ ["CREDIT", "DEBIT", "INT", "DIV", "FEE", "SRVCHG", "DEP", "ATM", "POS", "XFER",
        "CHECK", "PAYMENT", "CASH", "DIRECTDEP", "DIRECTDEBIT", "REPEATPMT", "OTHER"], n.toList = s := by decide
    obtain ⟨n, hn1, rfl⟩ := key s hm hs
    exact ⟨n, hn1, h2⟩

theorem firstError_none {α : Type} {f : α → Option String} {l : List α} :
    firstError f l = none ↔ ∀ x ∈ l, f x = none := by
  induction l with
  | nil => simp [firstError]
  | cons a l ih =>
    simp only [firstError]
    cases h : f a <;> simp [h, ih]

theorem date_unset {d : GoTime} : Date.equal d emptyDate = true ↔ Unset d := by
  simp [Date.equal, emptyDate, GoTime.zero, Unset]

/-- The rate test of Currency.Valid: an integer that is 0 modulo 2^64. -/
theorem bigInt64_zero (n : Int) : bigInt64 n = 0 ↔ n.natAbs % 2 ^ 64 = 0 := by
  unfold bigInt64
  simp only
  have h : n.natAbs % 2 ^ 64 < 2 ^ 64 := Nat.mod_lt _ (by decide)
  generalize n.natAbs % 2 ^ 64 = k at *
  norm_num at *
  split <;> split <;> omega

end Ofx
