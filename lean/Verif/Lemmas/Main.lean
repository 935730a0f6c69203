import Verif.Spec.Main
import Verif.Lemmas.Number
import Verif.Lemmas.AmountPrint
/-
Lemmas about parsing command lines.
-/
namespace Ofx
open Spec

/-- One flag set. -/
def setOne (name : String) (v : Value) (l : List (String × Value)) : List (String × Value) :=
  l.map fun d => if d.1 = name then (d.1, v) else d

/-- Flags given one after another. -/
def setAll (given : List (String × Value)) (l : List (String × Value)) : List (String × Value) :=
  l.map fun d => (d.1, (lastValue given d.1).getD d.2)

theorem lastValue_cons (name : String) (v : Value) (given : List (String × Value)) (x : String) :
    lastValue ((name, v) :: given) x = (lastValue given x).or (if name = x then some v else none) := by
  unfold lastValue
  rw [List.reverse_cons, List.find?_append, List.find?_singleton]
  cases h : given.reverse.find? (fun p => decide (p.1 = x)) with
  | some p => rfl
  | none =>
    by_cases hx : name = x
    · simp [hx]
    · simp [hx]

theorem setAll_cons (name : String) (v : Value) (given l : List (String × Value)) :
    setAll given (setOne name v l) = setAll ((name, v) :: given) l := by
  unfold setAll setOne
  rw [List.map_map]
  apply List.map_congr_left
  intro d _
  simp only [Function.comp]
  rw [lastValue_cons]
  by_cases h : d.1 = name
  · rw [if_pos h, if_pos h.symm]
    cases lastValue given d.1 <;> rfl
  · rw [if_neg h, if_neg (fun h' => h h'.symm), Option.or_none]

theorem setAll_nil (l : List (String × Value)) : setAll [] l = l := by
  unfold setAll lastValue
  simp

/-- What a flag variable does, by the name of its flag. -/
def VarOK (name : String) : FlagVar → Prop
  | .text set => name ∉ switches ∧ name ≠ "delay" ∧ ∀ v f, settings (set v f) = setOne name (.text v) (settings f)
  | .yes set => name ∈ switches ∧ ∀ b f, settings (set b f) = setOne name (.yes b) (settings f)
  | .number set => name ∉ switches ∧ name = "delay" ∧ ∀ n f, settings (set n f) = setOne name (.number n) (settings f)

def DefOK (names : List String) (p : Str × FlagVar) : Prop := ∃ name ∈ names, p.1 = name.toList ∧ VarOK name p.2

theorem defOK_mono {l l' : List String} (h : ∀ x ∈ l, x ∈ l') {p : Str × FlagVar} : DefOK l p → DefOK l' p := by
  rintro ⟨n, h1, h2⟩
  exact ⟨n, h _ h1, h2⟩

theorem defOK_text {names : List String} (name : String) (h : name ∈ names) (h' : name ∉ switches ∧ name ≠ "delay")
    (set : Str → Flags → Flags)
    (hs : ∀ v f, settings (set v f) = setOne name (.text v) (settings f)) : DefOK names (name.toList, .text set) :=
  ⟨name, h, rfl, h'.1, h'.2, hs⟩

theorem defOK_yes {names : List String} (name : String) (h : name ∈ names) (h' : name ∈ switches) (set : Bool → Flags → Flags)
    (hs : ∀ v f, settings (set v f) = setOne name (.yes v) (settings f)) : DefOK names (name.toList, .yes set) :=
  ⟨name, h, rfl, h', hs⟩

theorem serverFlags_ok : ∀ p ∈ serverFlags, DefOK serverNames p := by
  intro p hp
  unfold serverFlags at hp
  simp only [List.mem_cons, List.not_mem_nil, or_false] at hp
  rcases hp with rfl | rfl | rfl | rfl | rfl | rfl | rfl | rfl | rfl | rfl | rfl | rfl | rfl
  all_goals first
    | exact defOK_text _ (by decide) (by decide) _ (fun v f => by rfl)
    | exact defOK_yes _ (by decide) (by decide) _ (fun v f => by rfl)

theorem flags_ok (c : Command) : ∀ p ∈ c.flags, DefOK (takes c) p := by
  have hs : ∀ l : List String, (∀ x ∈ serverNames, x ∈ l) → ∀ p ∈ serverFlags, DefOK l p :=
    fun l h p hp => defOK_mono h (serverFlags_ok p hp)
  intro p hp
  cases c
  case getAccounts => exact serverFlags_ok p hp
  case detectSettings =>
    unfold Command.flags at hp
    simp only [List.mem_cons, List.not_mem_nil, or_false] at hp
    rcases hp with rfl | rfl | rfl | rfl | rfl | rfl
    all_goals first
      | exact defOK_text _ (by decide) (by decide) _ (fun v f => by rfl)
      | exact ⟨"delay", by decide, rfl, by decide, rfl, fun v f => by rfl⟩
  all_goals
    unfold Command.flags at hp
    rw [List.mem_append] at hp
    rcases hp with hp | hp
    · exact hs _ (by decide) p hp
    · simp only [List.mem_cons, List.not_mem_nil, or_false] at hp
      rcases hp with rfl | rfl | rfl | rfl
      all_goals exact defOK_text _ (by decide) (by decide) _ (fun v f => by rfl)

theorem takes_found (c : Command) : ∀ name ∈ takes c, (c.flags.find? (·.1 == name.toList)).isSome = true := by
  cases c <;> decide

theorem toList_inj {a b : String} (h : a.toList = b.toList) : a = b := String.toList_inj.mp h

/-- The variable of a flag of the sub-command. -/
theorem find_takes {c : Command} {name : String} (h : name ∈ takes c) :
    ∃ var, findFlag c.flags name.toList = some var ∧ VarOK name var := by
  have hf := takes_found c name h
  rw [Option.isSome_iff_exists] at hf
  obtain ⟨p, hp⟩ := hf
  refine ⟨p.2, by unfold findFlag; rw [hp]; rfl, ?_⟩
  obtain ⟨n', h1, h2, h3⟩ := flags_ok c p (List.mem_of_find?_eq_some hp)
  have h4 := List.find?_some hp
  have h4 : p.1 = name.toList := by simpa using h4
  rw [h2] at h4
  rw [toList_inj h4] at h3
  exact h3

theorem find_some {c : Command} {name : Str} {var : FlagVar} (h : findFlag c.flags name = some var) :
    ∃ n : String, name = n.toList ∧ n ∈ takes c ∧ VarOK n var := by
  unfold findFlag at h
  rw [Option.map_eq_some_iff] at h
  obtain ⟨p, hp, rfl⟩ := h
  obtain ⟨n', h1, h2, h3⟩ := flags_ok c p (List.mem_of_find?_eq_some hp)
  have h4 := List.find?_some hp
  have h4 : p.1 = name := by simpa using h4
  exact ⟨n', by rw [← h4, h2], h1, h3⟩

/-- Names of flags start with a letter and have no '='. -/
theorem takes_plain (c : Command) : ∀ name ∈ takes c, '=' ∉ name.toList ∧ name.toList.head?.isSome = true ∧
    name.toList.head? ≠ some '-' := by
  cases c <;> decide

theorem takes_cons {c : Command} {name : String} (h : name ∈ takes c) :
    ∃ a r, name.toList = a :: r ∧ a ≠ '-' ∧ a ≠ '=' ∧ '=' ∉ r := by
  obtain ⟨h1, h2, h3⟩ := takes_plain c name h
  cases hn : name.toList with
  | nil => rw [hn] at h2; cases h2
  | cons a r =>
    rw [hn] at h1 h3
    refine ⟨a, r, rfl, fun h => h3 (by rw [h]; rfl), fun h => h1 (by rw [h]; exact List.mem_cons_self), fun h => h1 (List.mem_cons_of_mem _ h)⟩

theorem flagBody_dash {dash : String} (hd : dash = "-" ∨ dash = "--") {a : Char} {r : Str} (ha : a ≠ '-') :
    flagBody (dash.toList ++ a :: r) = some (a :: r) := by
  rcases hd with rfl | rfl
  · show flagBody ('-' :: a :: r) = _
    unfold flagBody
    split
    · rename_i h; cases h
    · rename_i h; cases h; exact absurd rfl ha
    · rename_i h; cases h; exact absurd rfl ha
    · rename_i h; cases h; rfl
    · rename_i h; exact absurd rfl (h _)
  · show flagBody ('-' :: '-' :: a :: r) = _
    rfl

/-- An argument that is a flag. -/
theorem flagBody_some {arg body : Str} (h : flagBody arg = some body) :
    ∃ dash : String, (dash = "-" ∨ dash = "--") ∧ arg = dash.toList ++ body ∧ body ≠ [] := by
  unfold flagBody at h
  split at h
  · cases h
  · cases h
  · rename_i s hs; cases h
    exact ⟨"--", .inr rfl, rfl, fun h => hs h⟩
  · rename_i s h1 h2 h3; cases h
    exact ⟨"-", .inl rfl, rfl, fun h => h1 h⟩
  · cases h

theorem flagBody_none {arg : Str} : flagBody arg = none ↔ (arg.head? ≠ some '-' ∨ arg = "-".toList ∨ arg = "--".toList) := by
  unfold flagBody
  split
  · exact ⟨fun _ => .inr (.inl rfl), fun _ => rfl⟩
  · exact ⟨fun _ => .inr (.inr rfl), fun _ => rfl⟩
  · rename_i s hs
    refine ⟨(fun h => by cases h), fun h => ?_⟩
    rcases h with h | h | h
    · exact absurd rfl h
    · cases h
    · cases h; exact absurd rfl hs
  · rename_i s h1 h2 h3
    refine ⟨(fun h => by cases h), fun h => ?_⟩
    rcases h with h | h | h
    · exact absurd rfl h
    · cases h; exact absurd rfl h1
    · cases h; exact absurd rfl h2
  · rename_i h
    refine ⟨fun _ => .inl ?_, fun _ => rfl⟩
    cases arg with
    | nil => intro h; cases h
    | cons a r => intro h'; cases h'; exact absurd rfl (h _)

theorem splitFlag_plain {a : Char} {r : Str} (h : '=' ∉ r) : splitFlag (a :: r) = (a :: r, none) := by
  show (if _ then _ else _) = _
  rw [if_neg h]

theorem splitFlag_value {a : Char} {r : Str} (h : '=' ∉ r) (w : Str) : splitFlag (a :: r ++ '=' :: w) = (a :: r, some w) := by
  show (if '=' ∈ r ++ '=' :: w then (a :: (r ++ '=' :: w).takeWhile (· ≠ '='), some ((r ++ '=' :: w).dropWhile (· ≠ '=')).tail) else _) = _
  rw [if_pos (List.mem_append_right _ List.mem_cons_self)]
  have hr : ∀ x ∈ r, decide (x ≠ '=') = true := by
    intro x hx
    rw [decide_eq_true_eq]
    intro h'; exact h (h' ▸ hx)
  rw [List.takeWhile_append_of_pos hr, List.dropWhile_append_of_pos hr]
  simp

theorem splitFlag_inv {body : Str} (hb : body ≠ []) :
    ((splitFlag body).2 = none ∧ (splitFlag body).1 = body) ∨
    ∃ w, (splitFlag body).2 = some w ∧ body = (splitFlag body).1 ++ '=' :: w := by
  cases body with
  | nil => exact absurd rfl hb
  | cons a r =>
    by_cases h : '=' ∈ r
    · right
      have : splitFlag (a :: r) = (a :: r.takeWhile (· ≠ '='), some ((r.dropWhile (· ≠ '=')).tail)) := by
        show (if _ then _ else _) = _
        rw [if_pos h]
      rw [this]
      refine ⟨_, rfl, ?_⟩
      have h2 : r.dropWhile (· ≠ '=') = '=' :: (r.dropWhile (· ≠ '=')).tail := by
        have hne : r.dropWhile (· ≠ '=') ≠ [] := by
          intro h'
          have h4 := List.takeWhile_append_dropWhile (p := fun x => decide (x ≠ '=')) (l := r)
          rw [h', List.append_nil] at h4
          have h5 := List.all_takeWhile (p := fun x => decide (x ≠ '=')) (l := r)
          rw [h4, List.all_eq_true] at h5
          have := h5 _ h
          simp at this
        have h3 := List.head_dropWhile_not (fun x => decide (x ≠ '=')) hne
        rw [decide_eq_false_iff_not, not_not] at h3
        conv_lhs => rw [← List.cons_head_tail hne, h3]
      show a :: r = a :: (_ ++ _)
      rw [← h2, List.takeWhile_append_dropWhile]
    · left
      rw [splitFlag_plain h]
      exact ⟨rfl, rfl⟩

theorem parseBool_iff {w : Str} {b : Bool} : parseBool w = some b ↔
    ((b = true ∧ w ∈ ["1", "t", "T", "true", "TRUE", "True"].map String.toList) ∨
     (b = false ∧ w ∈ ["0", "f", "F", "false", "FALSE", "False"].map String.toList)) := by
  have key : ∀ l : List String, (l.any (·.toList == w) = true ↔ w ∈ l.map String.toList) := by
    intro l
    rw [List.any_eq_true, List.mem_map]
    constructor
    · rintro ⟨x, h1, h2⟩; exact ⟨x, h1, by simpa using h2⟩
    · rintro ⟨x, h1, h2⟩; exact ⟨x, h1, by simpa using h2⟩
  unfold parseBool
  by_cases h1 : w ∈ ["1", "t", "T", "true", "TRUE", "True"].map String.toList
  · rw [if_pos ((key _).mpr h1)]
    constructor
    · intro h; cases h; exact .inl ⟨rfl, h1⟩
    · rintro (⟨rfl, -⟩ | ⟨rfl, h⟩)
      · rfl
      · exfalso
        simp only [List.map_cons, List.map_nil, List.mem_cons, List.not_mem_nil, or_false] at h1
        rcases h1 with rfl | rfl | rfl | rfl | rfl | rfl <;> exact absurd h (by decide)
  · rw [if_neg (fun h => h1 ((key _).mp h))]
    by_cases h2 : w ∈ ["0", "f", "F", "false", "FALSE", "False"].map String.toList
    · rw [if_pos ((key _).mpr h2)]
      constructor
      · intro h; cases h; exact .inr ⟨rfl, h2⟩
      · rintro (⟨rfl, h⟩ | ⟨rfl, -⟩)
        · exact absurd h h1
        · rfl
    · rw [if_neg (fun h => h2 ((key _).mp h))]
      constructor
      · intro h; cases h
      · rintro (⟨-, h⟩ | ⟨-, h⟩)
        · exact absurd h h1
        · exact absurd h h2

/-- Flags that are spelled are parsed. -/
theorem parse_spelled {c : Command} {given : List (String × Value)} {a : List Str} (h : Spelled c given a)
    {rest : List Str} (hr : LeftAlone rest) :
    ∀ f, ∃ f', parseFlags c.flags f (a ++ rest) = .ok f' ∧ settings f' = setAll given (settings f) := by
  induction h with
  | nil =>
    intro f
    refine ⟨f, ?_, by rw [setAll_nil]⟩
    cases rest with
    | nil => rfl
    | cons arg rest =>
      show parseFlags c.flags f (arg :: rest) = _
      unfold parseFlags
      rw [flagBody_none.mpr hr]
  | @joined dash name word v given args hd hn hm _ ih =>
    intro f
    obtain ⟨x, r, e, hx1, hx2, hr2⟩ := takes_cons hn
    obtain ⟨var, hv, hok⟩ := find_takes hn
    have hb : flagBody (dash.toList ++ name.toList ++ "=".toList ++ word) = some (x :: (r ++ '=' :: word)) := by
      rw [e, show dash.toList ++ x :: r ++ "=".toList ++ word = dash.toList ++ x :: (r ++ '=' :: word) by simp]
      exact flagBody_dash hd hx1
    have hs : splitFlag (x :: (r ++ '=' :: word)) = (name.toList, some word) := by
      rw [e]; exact splitFlag_value hr2 word
    have step : ∀ f₁, settings f₁ = setOne name v (settings f) →
        parseFlags c.flags f ((dash.toList ++ name.toList ++ "=".toList ++ word) :: args ++ rest) = parseFlags c.flags f₁ (args ++ rest) →
        ∃ f', parseFlags c.flags f ((dash.toList ++ name.toList ++ "=".toList ++ word) :: args ++ rest) = .ok f' ∧
          settings f' = setAll ((name, v) :: given) (settings f) := by
      intro f₁ h1 h2
      obtain ⟨f', h3, h4⟩ := ih f₁
      exact ⟨f', by rw [h2, h3], by rw [h4, h1, setAll_cons]⟩
    have hh : ¬ ((x :: (r ++ '=' :: word)).head? = some '-' ∨ (x :: (r ++ '=' :: word)).head? = some '=') := by
      rintro (h | h) <;> cases h
      · exact hx1 rfl
      · exact hx2 rfl
    cases var with
    | text set =>
      obtain ⟨k1, k2, k3⟩ := hok
      cases v with
      | yes b => exact absurd hm.1 k1
      | number n => exact absurd hm.1 k2
      | text s =>
        obtain ⟨-, -, rfl⟩ := hm
        apply step (set s f) (k3 _ _)
        rw [List.cons_append]
        rw [parseFlags.eq_def]
        simp only [hb, if_neg hh, hs, hv]
    | yes set =>
      obtain ⟨k1, k3⟩ := hok
      cases v with
      | number n => rw [hm.1] at k1; exact absurd k1 (by decide)
      | text s => exact absurd k1 hm.1
      | yes b =>
        apply step (set b f) (k3 _ _)
        rw [List.cons_append]
        rw [parseFlags.eq_def]
        simp only [hb, if_neg hh, hs, hv, parseBool_iff.mpr hm.2]
    | number set =>
      obtain ⟨k1, k2, k3⟩ := hok
      cases v with
      | yes b => exact absurd hm.1 k1
      | text s => exact absurd k2 hm.2.1
      | number n =>
        apply step (set n f) (k3 _ _)
        rw [List.cons_append]
        rw [parseFlags.eq_def]
        simp only [hb, if_neg hh, hs, hv, (parseUint_iff _ _).mpr hm.2]
  | @apart dash name word v given args hd hn hns hm _ ih =>
    intro f
    obtain ⟨x, r, e, hx1, hx2, hr2⟩ := takes_cons hn
    obtain ⟨var, hv, hok⟩ := find_takes hn
    have hb : flagBody (dash.toList ++ name.toList) = some (x :: r) := by
      rw [e]; exact flagBody_dash hd hx1
    have hs : splitFlag (x :: r) = (name.toList, none) := by
      rw [e]; exact splitFlag_plain hr2
    have step : ∀ f₁, settings f₁ = setOne name v (settings f) →
        parseFlags c.flags f ((dash.toList ++ name.toList) :: word :: args ++ rest) = parseFlags c.flags f₁ (args ++ rest) →
        ∃ f', parseFlags c.flags f ((dash.toList ++ name.toList) :: word :: args ++ rest) = .ok f' ∧
          settings f' = setAll ((name, v) :: given) (settings f) := by
      intro f₁ h1 h2
      obtain ⟨f', h3, h4⟩ := ih f₁
      exact ⟨f', by rw [h2, h3], by rw [h4, h1, setAll_cons]⟩
    have hh : ¬ ((x :: r).head? = some '-' ∨ (x :: r).head? = some '=') := by
      rintro (h | h) <;> cases h
      · exact hx1 rfl
      · exact hx2 rfl
    cases var with
    | text set =>
      obtain ⟨k1, k2, k3⟩ := hok
      cases v with
      | yes b => exact absurd hm.1 k1
      | number n => exact absurd hm.1 k2
      | text s =>
        obtain ⟨-, -, rfl⟩ := hm
        apply step (set s f) (k3 _ _)
        rw [List.cons_append, List.cons_append]
        rw [parseFlags.eq_def]
        simp only [hb, if_neg hh, hs, hv]
    | yes set => exact absurd hok.1 hns
    | number set =>
      obtain ⟨k1, k2, k3⟩ := hok
      cases v with
      | yes b => exact absurd hm.1 k1
      | text s => exact absurd k2 hm.2.1
      | number n =>
        apply step (set n f) (k3 _ _)
        rw [List.cons_append, List.cons_append]
        rw [parseFlags.eq_def]
        simp only [hb, if_neg hh, hs, hv, (parseUint_iff _ _).mpr hm.2]
  | @switch dash name given args hd hn hns _ ih =>
    intro f
    obtain ⟨x, r, e, hx1, hx2, hr2⟩ := takes_cons hn
    obtain ⟨var, hv, hok⟩ := find_takes hn
    have hb : flagBody (dash.toList ++ name.toList) = some (x :: r) := by
      rw [e]; exact flagBody_dash hd hx1
    have hs : splitFlag (x :: r) = (name.toList, none) := by
      rw [e]; exact splitFlag_plain hr2
    have hh : ¬ ((x :: r).head? = some '-' ∨ (x :: r).head? = some '=') := by
      rintro (h | h) <;> cases h
      · exact hx1 rfl
      · exact hx2 rfl
    cases var with
    | text set => exact absurd hns hok.1
    | number set => exact absurd hns hok.1
    | yes set =>
      obtain ⟨f', h3, h4⟩ := ih (set true f)
      refine ⟨f', ?_, by rw [h4, hok.2, setAll_cons]⟩
      rw [List.cons_append, parseFlags.eq_def]
      simp only [hb, if_neg hh, hs, hv, h3]

/-- What parsing does with any arguments. -/
theorem parse_cases (c : Command) : ∀ (n : Nat) (args : List Str), args.length ≤ n → ∀ f,
    (∃ given a rest f', args = a ++ rest ∧ Spelled c given a ∧ LeftAlone rest ∧ parseFlags c.flags f args = .ok f' ∧
      settings f' = setAll given (settings f)) ∨
    parseFlags c.flags f args = .exit 2 ∨
    (parseFlags c.flags f args = .exit 0 ∧ ∃ arg ∈ args, HelpArg arg) := by
  intro n
  induction n with
  | zero =>
    intro args h f
    obtain rfl : args = [] := List.length_eq_zero_iff.mp (by omega)
    exact .inl ⟨[], [], [], f, rfl, .nil, trivial, rfl, by rw [setAll_nil]⟩
  | succ n ih =>
    intro args hlen f
    cases args with
    | nil => exact .inl ⟨[], [], [], f, rfl, .nil, trivial, rfl, by rw [setAll_nil]⟩
    | cons arg rest =>
      have hlen : rest.length ≤ n := by simpa using hlen
      cases hb : flagBody arg with
      | none =>
        refine .inl ⟨[], [], arg :: rest, f, rfl, .nil, flagBody_none.mp hb, ?_, by rw [setAll_nil]⟩
        rw [parseFlags.eq_def]
        simp only [hb]
      | some body =>
        obtain ⟨dash, hd, harg, hne⟩ := flagBody_some hb
        by_cases hh : body.head? = some '-' ∨ body.head? = some '='
        · right; left
          rw [parseFlags.eq_def]
          simp only [hb, if_pos hh]
        have next : ∀ (given₁ : List (String × Value)) (a₁ rest' : List Str) (f₁ : Flags), arg :: rest = a₁ ++ rest' → rest'.length ≤ n →
            parseFlags c.flags f (arg :: rest) = parseFlags c.flags f₁ rest' →
            (∀ given a, Spelled c given a → Spelled c (given₁ ++ given) (a₁ ++ a)) →
            (∀ given, setAll given (settings f₁) = setAll (given₁ ++ given) (settings f)) →
            (∃ given a rest₂ f', arg :: rest = a ++ rest₂ ∧ Spelled c given a ∧ LeftAlone rest₂ ∧
              parseFlags c.flags f (arg :: rest) = .ok f' ∧ settings f' = setAll given (settings f)) ∨
            parseFlags c.flags f (arg :: rest) = .exit 2 ∨
            (parseFlags c.flags f (arg :: rest) = .exit 0 ∧ ∃ x ∈ arg :: rest, HelpArg x) := by
          intro given₁ a₁ rest' f₁ h1 h2 h3 h4 h5
          rcases ih rest' h2 f₁ with ⟨given, a, rest₂, f', k1, k2, k3, k4, k5⟩ | k | ⟨k, x, k1, k2⟩
          · exact .inl ⟨given₁ ++ given, a₁ ++ a, rest₂, f', by rw [h1, k1, List.append_assoc], h4 _ _ k2, k3,
              by rw [h3, k4], by rw [k5, h5]⟩
          · exact .inr (.inl (by rw [h3, k]))
          · exact .inr (.inr ⟨by rw [h3, k], x, by rw [h1]; exact List.mem_append_right _ k1, k2⟩)
        cases hv : findFlag c.flags (splitFlag body).1 with
        | none =>
          by_cases hw : (splitFlag body).1 = "help".toList ∨ (splitFlag body).1 = "h".toList
          · right; right
            refine ⟨?_, arg, List.mem_cons_self, ?_⟩
            · rw [parseFlags.eq_def]
              simp only [hb, if_neg hh, hv, if_pos hw]
            · obtain ⟨word, hword, hw'⟩ : ∃ word : String, (word = "h" ∨ word = "help") ∧ (splitFlag body).1 = word.toList := by
                rcases hw with hw | hw
                · exact ⟨_, .inr rfl, hw⟩
                · exact ⟨_, .inl rfl, hw⟩
              refine ⟨dash, word, hd, hword, ?_⟩
              rcases splitFlag_inv hne with ⟨-, h1⟩ | ⟨w, -, h1⟩
              · left; rw [harg, ← hw', h1]
              · right
                rw [harg, h1, hw']
                exact ⟨w, by simp⟩
          · right; left
            rw [parseFlags.eq_def]
            simp only [hb, if_neg hh, hv, if_neg hw]
        | some var =>
          obtain ⟨name, hname, hn, hok⟩ := find_some hv
          rcases splitFlag_inv hne with ⟨hs, h1⟩ | ⟨w, hs, h1⟩
          · -- without '='
            have harg' : arg = dash.toList ++ name.toList := by rw [harg, ← hname, h1]
            cases var with
            | yes set =>
              apply next [(name, .yes true)] [arg] rest (set true f) rfl hlen
              · rw [parseFlags.eq_def]
                simp only [hb, if_neg hh, hv, hs]
              · intro given a hg
                rw [harg']
                exact .switch hd hn hok.1 hg
              · intro given
                rw [hok.2, setAll_cons]; rfl
            | text set =>
              cases rest with
              | nil =>
                right; left
                rw [parseFlags.eq_def]
                simp only [hb, if_neg hh, hv, hs]
              | cons word rest =>
                apply next [(name, .text word)] [arg, word] rest (set word f) rfl (by simp at hlen; omega)
                · rw [parseFlags.eq_def]
                  simp only [hb, if_neg hh, hv, hs]
                · intro given a hg
                  rw [harg']
                  exact .apart hd hn hok.1 ⟨hok.1, hok.2.1, rfl⟩ hg
                · intro given
                  rw [hok.2.2, setAll_cons]; rfl
            | number set =>
              cases rest with
              | nil =>
                right; left
                rw [parseFlags.eq_def]
                simp only [hb, if_neg hh, hv, hs]
              | cons word rest =>
                cases hp : parseUint word with
                | none =>
                  right; left
                  rw [parseFlags.eq_def]
                  simp only [hb, if_neg hh, hv, hs, hp]
                | some k =>
                  apply next [(name, .number k)] [arg, word] rest (set k f) rfl (by simp at hlen; omega)
                  · rw [parseFlags.eq_def]
                    simp only [hb, if_neg hh, hv, hs, hp]
                  · intro given a hg
                    rw [harg']
                    exact .apart hd hn hok.1 ⟨hok.2.1, (parseUint_iff _ _).mp hp⟩ hg
                  · intro given
                    rw [hok.2.2, setAll_cons]; rfl
          · have harg' : arg = dash.toList ++ name.toList ++ "=".toList ++ w := by
              rw [harg, ← hname]
              conv_lhs => rw [h1]
              simp
            cases var with
            | yes set =>
              cases hp : parseBool w with
              | none =>
                right; left
                rw [parseFlags.eq_def]
                simp only [hb, if_neg hh, hv, hs, hp]
              | some b =>
                apply next [(name, .yes b)] [arg] rest (set b f) rfl hlen
                · rw [parseFlags.eq_def]
                  simp only [hb, if_neg hh, hv, hs, hp]
                · intro given a hg
                  rw [harg']
                  exact .joined hd hn ⟨hok.1, parseBool_iff.mp hp⟩ hg
                · intro given
                  rw [hok.2, setAll_cons]; rfl
            | text set =>
              apply next [(name, .text w)] [arg] rest (set w f) rfl hlen
              · rw [parseFlags.eq_def]
                simp only [hb, if_neg hh, hv, hs]
              · intro given a hg
                rw [harg']
                exact .joined hd hn ⟨hok.1, hok.2.1, rfl⟩ hg
              · intro given
                rw [hok.2.2, setAll_cons]; rfl
            | number set =>
              cases hp : parseUint w with
              | none =>
                right; left
                rw [parseFlags.eq_def]
                simp only [hb, if_neg hh, hv, hs, hp]
              | some k =>
                apply next [(name, .number k)] [arg] rest (set k f) rfl hlen
                · rw [parseFlags.eq_def]
                  simp only [hb, if_neg hh, hv, hs, hp]
                · intro given a hg
                  rw [harg']
                  exact .joined hd hn ⟨hok.2.1, (parseUint_iff _ _).mp hp⟩ hg
                · intro given
                  rw [hok.2.2, setAll_cons]; rfl

theorem digitOf_digit {c : Char} (h : isDigit c = true) : digitOf c = some (digitV c) ∧ c ≠ '_' := by
  have h' : '0' ≤ c ∧ c ≤ '9' := by
    have h2 : 48 ≤ c.toNat ∧ c.toNat ≤ 57 := by simpa [isDigit] using h
    exact ⟨UInt32.le_iff_toNat_le.mpr h2.1, UInt32.le_iff_toNat_le.mpr h2.2⟩
  constructor
  · unfold digitOf; rw [if_pos h']; rfl
  · rintro rfl; exact absurd h (by decide)

theorem parseDigits_digits (s : Str) (h : ∀ c ∈ s, isDigit c = true) : ∀ n, n < 2 ^ 64 →
    parseDigits 10 n s = if n * 10 ^ s.length + digitsVal s < 2 ^ 64 then some (n * 10 ^ s.length + digitsVal s) else none := by
  induction s with
  | nil => intro n hn; rw [show n * 10 ^ ([] : Str).length + digitsVal [] = n by simp [digitsVal], if_pos hn]; rfl
  | cons c cs ih =>
    intro n hn
    obtain ⟨h1, h2⟩ := digitOf_digit (h c List.mem_cons_self)
    have h3 := digitV_lt (h c List.mem_cons_self)
    have e : n * 10 ^ (c :: cs).length + digitsVal (c :: cs) = (n * 10 + digitV c) * 10 ^ cs.length + digitsVal cs := by
      rw [digitsVal_cons, List.length_cons, Nat.pow_succ]; ring
    rw [e]
    unfold parseDigits
    simp only [if_neg h2, h1]
    rw [if_neg (by omega)]
    by_cases hb : n * 10 + digitV c ≥ 2 ^ 64
    · rw [if_pos hb, if_neg]
      have : (n * 10 + digitV c) * 1 ≤ (n * 10 + digitV c) * 10 ^ cs.length :=
        Nat.mul_le_mul_left _ (Nat.one_le_pow _ _ (by omega))
      omega
    · rw [if_neg hb, ih (fun x hx => h x (List.mem_cons_of_mem _ hx)) _ (by omega)]

/-- Decimal numbers are read as what they denote, if that is less than 2^64. -/
theorem parseUint_natStr (n : Nat) : parseUint (natStr n) = if n < 2 ^ 64 then some n else none := by
  have hne := natStr_ne_nil n
  have hd := natStr_digits n
  have hv := digitsVal_natStr n
  have hu : (natStr n).contains '_' = false := by
    rw [List.contains_eq_mem, decide_eq_false_iff_not]
    intro h; exact absurd (hd _ h) (by decide)
  unfold parseUint
  rw [if_neg hne, hu]
  simp only [Bool.false_and, Bool.false_eq_true, if_false]
  rcases natStr_head n with h0 | h0
  · rw [h0] at hv ⊢
    have : n = 0 := by rw [← hv]; rfl
    subst this
    rfl
  · have hb : baseOf (natStr n) = (10, natStr n) := by
      unfold baseOf
      split
      · rename_i h; rw [h] at h0; exact absurd rfl h0
      · rename_i h; rw [h] at h0; exact absurd rfl h0
      · rfl
    rw [hb, parseDigits_digits _ hd 0 (by norm_num), hv, Nat.zero_mul, Nat.zero_add]
    split <;> rename_i h <;> split at h <;> simp_all

end Ofx
