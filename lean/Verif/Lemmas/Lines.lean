import Verif.Spec.Lines
import Verif.Lemmas.Shape
import Verif.Lemmas.Enum
/-
Counting the lines of what is printed.
-/
namespace Ofx
open Spec

theorem lineCount_append (a b : Str) : lineCount (a ++ b) = lineCount a + lineCount b := List.count_append ..

theorem lineCount_cons {c : Char} (h : c ≠ '\n') (s : Str) : lineCount (c :: s) = lineCount s := by
  unfold lineCount
  rw [List.count_cons_of_ne h]

theorem lineCount_digits {s : Str} (h : ∀ c ∈ s, isDigit c = true) : lineCount s = 0 := by
  unfold lineCount
  rw [List.count_eq_zero]
  intro hn
  have := h _ hn
  revert this; decide

theorem lineCount_nat (n : Nat) : lineCount (natStr n) = 0 := lineCount_digits (natStr_digits n)

theorem lineCount_pad (w n : Nat) : lineCount (padZero w (natStr n)) = 0 := lineCount_digits (padZero_digits (natStr_digits n))

theorem lineCount_fmtPad (w n : Nat) : lineCount (fmtPad w n) = 0 := lineCount_pad w n

theorem lineCount_int (i : Int) : lineCount (intStr i) = 0 := by
  unfold intStr
  by_cases h : i < 0
  · rw [if_pos h, lineCount_cons (by decide)]; exact lineCount_nat _
  · rw [if_neg h]; exact lineCount_nat _

theorem lineCount_plus (w : Nat) (i : Int) : lineCount (fmtPlusPad w i) = 0 := by
  unfold fmtPlusPad
  rw [lineCount_cons (by split <;> decide)]; exact lineCount_pad _ _

theorem lineCount_replicate {c : Char} (h : c ≠ '\n') (n : Nat) : lineCount (List.replicate n c) = 0 := by
  unfold lineCount
  rw [List.count_eq_zero]
  intro hn
  exact h ((List.mem_replicate.mp hn).2).symm

theorem lineCount_sublist {a b : Str} (h : a.Sublist b) (hb : lineCount b = 0) : lineCount a = 0 := by
  have := h.count_le '\n'
  unfold lineCount at hb ⊢
  omega

theorem lineCount_amount (x : Rat) : lineCount (Amount.string x) = 0 := by
  have h : lineCount (floatString x 100) = 0 := by
    have hs' : lineCount (if x.num < 0 then ['-'] else []) = 0 := by
      by_cases h0 : x.num < 0
      · rw [if_pos h0]; decide
      · rw [if_neg h0]; decide
    unfold floatString
    simp only
    split
    · simp only [lineCount_append, hs', lineCount_nat, lineCount_replicate (show '0' ≠ '\n' by decide)]; decide
    · simp only [lineCount_append, hs', lineCount_nat, lineCount_pad]; decide
  have ht : ∀ (c : Char) (s : Str), (trimRightC c s).Sublist s := by
    intro c s
    unfold trimRightC trimRightP
    have := (List.dropWhile_sublist (l := s.reverse) (fun x => x == c)).reverse
    rwa [List.reverse_reverse] at this
  unfold Amount.string
  exact lineCount_sublist ((ht _ _).trans (ht _ _)) h

theorem lineCount_date (t : GoTime) : lineCount (Date.string t) = lineCount t.zone := by
  have hf : lineCount (Date.format t) = 0 := by
    unfold Date.format
    simp only
    simp only [lineCount_append, lineCount_fmtPad, lineCount_cons (show '.' ≠ '\n' by decide), Nat.add_zero]
    split
    · rw [lineCount_cons (by decide)]; exact lineCount_fmtPad _ _
    · exact lineCount_fmtPad _ _
  have h1 : lineCount (if t.off < 0 then Date.format t ++ '[' :: fmtPlusPad 0 (t.off.tdiv 3600)
      else Date.format t ++ '[' :: intStr (t.off.tdiv 3600)) = 0 := by
    split
    · rw [lineCount_append, hf, lineCount_cons (by decide), lineCount_plus]
    · rw [lineCount_append, hf, lineCount_cons (by decide), lineCount_int]
  unfold Date.string
  simp only
  generalize (if t.off < 0 then Date.format t ++ '[' :: fmtPlusPad 0 (t.off.tdiv 3600)
      else Date.format t ++ '[' :: intStr (t.off.tdiv 3600)) = f at h1
  have h2 : lineCount (if (t.off.tmod 3600).tdiv 36 > 0 then f ++ '.' :: fmtPad 2 ((t.off.tmod 3600).tdiv 36).natAbs
      else if (t.off.tmod 3600).tdiv 36 < 0 then f ++ '.' :: fmtPad 2 ((t.off.tmod 3600).tdiv 36).natAbs else f) = 0 := by
    split
    · rw [lineCount_append, h1, lineCount_cons (by decide), lineCount_fmtPad]
    · split
      · rw [lineCount_append, h1, lineCount_cons (by decide), lineCount_fmtPad]
      · exact h1
  generalize (if (t.off.tmod 3600).tdiv 36 > 0 then f ++ '.' :: fmtPad 2 ((t.off.tmod 3600).tdiv 36).natAbs
      else if (t.off.tmod 3600).tdiv 36 < 0 then f ++ '.' :: fmtPad 2 ((t.off.tmod 3600).tdiv 36).natAbs else f) = g at h2
  by_cases hz : t.zone.length > 0
  · rw [if_pos hz, lineCount_append, lineCount_append, h2, lineCount_cons (by decide)]
    show 0 + lineCount t.zone + 0 = _
    omega
  · rw [if_neg hz, lineCount_append, h2, List.length_eq_zero_iff.mp (Nat.le_zero.mp (Nat.not_lt.mp hz))]
    decide

/-- The lines of several texts. -/
theorem lineCount_flatten (ls : List Str) : lineCount ls.flatten = (ls.map lineCount).sum := by
  induction ls with
  | nil => rfl
  | cons a ls ih => rw [List.flatten_cons, lineCount_append, ih, List.map_cons, List.sum_cons]

theorem trnType_line {e : Nat} {kind : Str} (h : enumTrnType.string e = .ret kind) : lineCount kind = 0 := by
  have key : ∀ n ∈ enumTrnType.names, lineCount n = 0 := by decide +kernel
  have g := good_of_mem (show enumTrnType ∈ allEnums by decide +kernel)
  cases hv : enumTrnType.valid e
  · rw [EnumTable.string, hv] at h
    cases h
    simp only [lineCount_append, lineCount_nat]
    decide +kernel
  · obtain ⟨s, hs, hs'⟩ := g.string_valid hv
    rw [hs'] at h; cases h
    exact key _ (List.mem_of_getElem? hs)

/-- The lines of a line about a transaction: itself and what is broken in its texts. -/
theorem lineCount_transaction {cur : CurrSymbol} {t : Transaction} {line : Str} (h : Spec.transactionLine cur t line) :
    lineCount line = 1 + ((transactionTexts cur t).map lineCount).sum := by
  obtain ⟨p1, p2, kind, name, hk, hn, rfl⟩ := h
  have hname : name = if t.Name = [] then (t.Payee.map (·.Name)).getD [] else t.Name := by
    rcases hn with ⟨rfl, h⟩ | ⟨h, p, hp, rfl⟩ | ⟨h, hp, rfl⟩
    · rw [if_neg h]
    · rw [if_pos h, hp]; rfl
    · rw [if_pos h, hp]; rfl
  have hmemo : lineCount (if t.Memo = [] then [] else " - ".toList ++ t.Memo) = lineCount t.Memo := by
    by_cases h : t.Memo = []
    · rw [if_pos h, h]
    · rw [if_neg h, lineCount_append]
      show 0 + _ = _
      omega
  have hb : lineCount " ".toList = 0 := by decide
  have hn' : lineCount "\n".toList = 1 := by decide
  simp only [lineCount_append, lineCount_date, lineCount_amount, trnType_line hk, hmemo, hb, hn',
    lineCount_replicate (show ' ' ≠ '\n' by decide), transactionTexts, List.map_cons, List.map_nil, List.sum_cons,
    List.sum_nil, ← hname]
  omega

theorem lineCount_balance (amount : Rat) (cur : CurrSymbol) (asOf : GoTime) :
    lineCount (Spec.balanceLine amount cur asOf) = 1 + lineCount cur.code + lineCount asOf.zone := by
  unfold Spec.balanceLine
  have h1 : lineCount "Balance: ".toList = 0 := by decide
  have h2 : lineCount " ".toList = 0 := by decide
  have h3 : lineCount " (as of ".toList = 0 := by decide
  have h4 : lineCount ")\n".toList = 1 := by decide
  simp only [lineCount_append, lineCount_date, lineCount_amount, h1, h2, h3, h4]
  omega

theorem lineCount_listing {amount : Rat} {cur : CurrSymbol} {asOf : GoTime} {ts : List Transaction} {lines : List Str}
    (h : List.Forall₂ (Spec.transactionLine cur) ts lines) :
    lineCount (Spec.balanceLine amount cur asOf ++ "Transactions:\n".toList ++ lines.flatten) =
      2 + ts.length + ((listingTexts cur asOf ts).map lineCount).sum := by
  have hl : lineCount lines.flatten = ts.length + ((ts.flatMap (transactionTexts cur)).map lineCount).sum := by
    rw [lineCount_flatten]
    induction h with
    | nil => rfl
    | cons h1 h2 ih =>
      rw [List.map_cons, List.sum_cons, ih, lineCount_transaction h1, List.flatMap_cons, List.map_append, List.sum_append,
        List.length_cons]
      omega
  have h3 : lineCount "Transactions:\n".toList = 1 := by decide
  rw [lineCount_append, lineCount_append, hl, h3, lineCount_balance, listingTexts, List.map_cons, List.map_cons, List.sum_cons,
    List.sum_cons]
  omega

end Ofx
