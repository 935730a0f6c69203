import Verif.Spec.Size
import Verif.Spec.Grammar
import Verif.Lemmas.Leaf
import Verif.Lemmas.Utf8
/-
What is read is no larger than the elements it is read from, and these are no larger than the
document.
-/
namespace Ofx
open Spec

/-! ### Bytes -/

theorem bytes_toBytes (s : Str) : bytes s = (toBytes s).length := by
  rw [toBytes_eq]; rfl

theorem bytes_nil : bytes [] = 0 := rfl

theorem bytes_append (a b : Str) : bytes (a ++ b) = bytes a + bytes b := by
  rw [bytes_toBytes, bytes_toBytes, bytes_toBytes, toBytes_append, List.length_append]

theorem bytes_char (c : Char) (s : Str) : bytes (c :: s) = c.utf8Size + bytes s := by
  rw [bytes_toBytes, bytes_toBytes]
  show (String.utf8EncodeChar c ++ toBytes s).length = _
  rw [List.length_append, String.length_utf8EncodeChar]

theorem length_le_bytes : ∀ s : Str, s.length ≤ bytes s
  | [] => Nat.le_refl _
  | c :: s => by
    have := length_le_bytes s
    have := c.utf8Size_pos
    rw [bytes_char, List.length_cons]; omega

theorem trimSpace_bytes (s : Str) : bytes (trimSpace s) ≤ bytes s := by
  obtain ⟨w, w', -, -, h⟩ := trimSpace_decomp s
  have h := congrArg bytes h
  rw [bytes_append, bytes_append] at h
  omega

/-! ### Sizes of elements -/

mutual
/-- Elements, the bytes of their names and the bytes of texts. -/
def nodeSize : Node → Nat
  | .elem n cs => 1 + bytes n + nodesSize cs
  | .text s => bytes s
  | .misc => 0
def nodesSize : List Node → Nat
  | [] => 0
  | c :: cs => nodeSize c + nodesSize cs
end

theorem nodesSize_append : ∀ a b, nodesSize (a ++ b) = nodesSize a + nodesSize b
  | [], b => by simp [nodesSize]
  | x :: a, b => by
    show nodeSize x + nodesSize (a ++ b) = nodeSize x + nodesSize a + nodesSize b
    rw [nodesSize_append a b]; omega

theorem nodesSize_filter (p : Node → Bool) : ∀ l, nodesSize (l.filter p) ≤ nodesSize l
  | [] => Nat.le_refl _
  | x :: l => by
    have := nodesSize_filter p l
    rw [List.filter_cons]
    by_cases h : p x = true
    · rw [if_pos h]
      show nodeSize x + _ ≤ nodeSize x + _
      omega
    · rw [if_neg h]
      show _ ≤ nodeSize x + _
      omega

theorem leafText_size : ∀ cs, bytes (leafText cs) ≤ nodesSize cs
  | [] => Nat.le_refl _
  | .text s :: cs => by
    have := leafText_size cs
    show bytes (s ++ leafText cs) ≤ bytes s + nodesSize cs
    rw [bytes_append]; omega
  | .misc :: cs => by
    have := leafText_size cs
    show bytes (leafText cs) ≤ 0 + nodesSize cs
    omega
  | .elem n c :: cs => by
    have := leafText_size cs
    show bytes (leafText cs) ≤ nodeSize (.elem n c) + nodesSize cs
    omega

/-! ### Decoding structures -/

def evSize : Ev → Nat
  | .hit _ _ cs => 1 + nodesSize cs
  | .junk => 0

def evsSize (es : List Ev) : Nat := (es.map evSize).sum

theorem evsSize_append (a b : List Ev) : evsSize (a ++ b) = evsSize a + evsSize b := by
  simp [evsSize]

mutual
theorem events_size (fs : Fields) : ∀ (c : Node) (p : List Str), evsSize (fs.events p c) ≤ nodeSize c
  | .elem n cs, p => by
    unfold Fields.events
    by_cases h1 : fs.hits p n = true
    · rw [if_pos h1]
      show 1 + nodesSize cs + 0 ≤ 1 + bytes n + nodesSize cs
      omega
    · rw [if_neg h1]
      by_cases h2 : fs.under (p ++ [n]) = true
      · rw [if_pos h2]
        have := eventsL_size fs cs (p ++ [n])
        show _ ≤ 1 + bytes n + nodesSize cs
        omega
      · rw [if_neg h2]
        exact Nat.zero_le _
  | .text s, p => by
    unfold Fields.events
    by_cases h : (trimSpace s).isEmpty = true
    · rw [if_pos h]; exact Nat.zero_le _
    · rw [if_neg h]; exact Nat.zero_le _
  | .misc, p => by
    unfold Fields.events
    exact Nat.zero_le _
theorem eventsL_size (fs : Fields) : ∀ (cs : List Node) (p : List Str), evsSize (fs.eventsL p cs) ≤ nodesSize cs
  | [], p => by unfold Fields.eventsL; exact Nat.zero_le _
  | c :: cs, p => by
    unfold Fields.eventsL
    rw [evsSize_append]
    have h1 := events_size fs c p
    have h2 := eventsL_size fs cs p
    show _ ≤ nodeSize c + nodesSize cs
    omega
end

theorem runEvents_size {α : Type} (strict : Bool) (size : α → Nat) {step : α → List Str → Str → List Node → Except String α}
    (h : ∀ v p n c v', step v p n c = .ok v' → size v' ≤ size v + (1 + nodesSize c)) :
    ∀ (es : List Ev) v v', runEvents strict step v es = .ok v' → size v' ≤ size v + evsSize es
  | [], v, v', hr => by cases hr; exact Nat.le_refl _
  | .hit p n cs :: es, v, v', hr => by
    unfold runEvents at hr
    cases hs : step v p n cs with
    | error e => rw [hs] at hr; cases hr
    | ok x =>
      rw [hs] at hr
      have h1 := h v p n cs x hs
      have h2 := runEvents_size strict size h es x v' hr
      show _ ≤ _ + (1 + nodesSize cs + evsSize es)
      omega
  | .junk :: es, v, v', hr => by
    unfold runEvents at hr
    cases strict with
    | true => cases hr
    | false =>
      have := runEvents_size false size h es v v' hr
      show _ ≤ _ + (0 + evsSize es)
      omega

theorem leaf_size (env : Env) (l : Leaf) (s : Str) (v : l.Den) (h : l.parse env s = .ok v) : leafSize l v ≤ bytes s := by
  cases l with
  | str =>
    have h : (Except.ok (trimSpace s) : Except String Str) = .ok v := h
    cases h
    exact trimSpace_bytes s
  | uid =>
    have h : (Except.ok (trimSpace s) : Except String Str) = .ok v := h
    cases h
    exact trimSpace_bytes s
  | int => exact Nat.zero_le _
  | bool => exact Nat.zero_le _
  | amount => exact Nat.zero_le _
  | date => exact Nat.zero_le _
  | curr => exact Nat.zero_le _
  | enum t => exact Nat.zero_le _

mutual
theorem zero_size : (t : Ty) → tySize t t.zero = 0
  | .leaf l => by cases l <;> rfl
  | .struct xn fs => fields_zero_size fs
  | .closed _ _ fs => fields_zero_size fs
  | .ptr t => rfl
  | .slice t => rfl
  | .msgSets fs => rfl
theorem fields_zero_size : (fs : Fields) → fieldsSize fs fs.zero = 0
  | .nil => rfl
  | .field _ _ _ t rest => by
    show tySize t t.zero + fieldsSize rest rest.zero = 0
    rw [zero_size t, fields_zero_size rest]
  | .alts as rest => by
    show 0 + fieldsSize rest rest.zero = 0
    rw [fields_zero_size rest]
end

theorem mapE_size {α : Type} {f : Node → Except String α} (size : α → Nat) (h : ∀ n x, f n = .ok x → size x ≤ nodeSize n) :
    ∀ l ys, mapE f l = .ok ys → (ys.map size).sum ≤ nodesSize l
  | [], ys, hm => by cases hm; exact Nat.le_refl _
  | n :: l, ys, hm => by
    unfold mapE at hm
    cases hf : f n with
    | error e => rw [hf] at hm; cases hm
    | ok y =>
      rw [hf] at hm
      simp only at hm
      cases hr : mapE f l with
      | error e => rw [hr] at hm; cases hm
      | ok ys' =>
        rw [hr] at hm
        cases hm
        have h1 := h n y hf
        have h2 := mapE_size size h l ys' hr
        show size y + (ys'.map size).sum ≤ nodeSize n + nodesSize l
        omega

theorem onlyChild_size {cs : List Node} {n : Str} {ch : List Node} (h : onlyChild cs = some (n, ch)) :
    1 + bytes n + nodesSize ch ≤ nodesSize cs := by
  have hf := nodesSize_filter (fun c => !isBlank c) cs
  unfold onlyChild at h
  generalize cs.filter (fun c => !isBlank c) = l at h hf
  match l, h with
  | [.elem n' ch'], h =>
    simp only [Option.some.injEq, Prod.mk.injEq] at h
    obtain ⟨rfl, rfl⟩ := h
    exact hf

theorem decMsgSet_size {α : Type} (size : α → Nat) {d : List Node → Except String α} (h : ∀ cs x, d cs = .ok x → size x ≤ nodesSize cs) :
    ∀ n x, decMsgSet d n = .ok x → 1 + bytes x.2.1 + size x.2.2 ≤ nodeSize n
  | .elem m ch, x, hd => by
    unfold decMsgSet at hd
    simp only at hd
    cases ho : onlyChild ch with
    | none => rw [ho] at hd; cases hd
    | some p =>
      obtain ⟨n, ch'⟩ := p
      rw [ho] at hd
      simp only at hd
      cases hx : d ch' with
      | error e => rw [hx] at hd; cases hd
      | ok y =>
        rw [hx] at hd
        cases hd
        have h1 := h ch' y hx
        have h2 := onlyChild_size ho
        show 1 + bytes n + size y ≤ 1 + bytes m + nodesSize ch
        omega
  | .text _, x, hd => by cases hd
  | .misc, x, hd => by cases hd

/-- What an element of this type adds besides what is in it. -/
def over : Ty → Nat
  | .ptr _ => 1
  | .slice _ => 1
  | _ => 0

theorem over_le (t : Ty) : over t ≤ 1 := by cases t <;> first | exact Nat.le_refl _ | exact Nat.zero_le _

theorem over_single {t : Ty} (h : t.single = true) : over t = 0 := by
  cases t <;> first | rfl | cases h

theorem over_struct {t : Ty} (h : t.isStruct = true) : over t = 0 := by
  cases t <;> first | rfl | cases h

theorem sum_snoc {α : Type} (f : α → Nat) (l : List α) (x : α) : ((l ++ [x]).map f).sum = (l.map f).sum + f x := by
  simp

mutual
theorem ty_size (env : Env) : (t : Ty) → ∀ nm om, t.wf nm om = true → ∀ v name cs v', t.dec env v name cs = .ok v' →
    tySize t v' ≤ tySize t v + (over t + nodesSize cs)
  | .leaf l, nm, om, hw, v, name, cs, v', h => by
    have h1 := leaf_size env l _ v' h
    have h2 := leafText_size cs
    show leafSize l v' ≤ leafSize l v + _
    omega
  | .struct xn fs, nm, om, hw, v, name, cs, v', h => by
    unfold Ty.wf at hw
    unfold Ty.dec at h
    by_cases hx : xn.check name = true
    · simp only [hx, if_true] at h
      cases hr : runEvents false (fun v p n c => fs.dec env v p n c) v.2 (fs.eventsL [] cs) with
      | error e => erw [hr] at h; cases h
      | ok x =>
        erw [hr] at h
        cases h
        have h1 := runEvents_size false (fieldsSize fs) (fun v p n c v' => fields_size env fs fs hw v p n c v') _ _ _ hr
        have h2 := eventsL_size fs cs []
        show fieldsSize fs x ≤ fieldsSize fs v.2 + (0 + _)
        omega
    · simp only [hx] at h; cases h
  | .closed _ _ fs, nm, om, hw, v, name, cs, v', h => by
    unfold Ty.wf at hw
    rw [Bool.and_eq_true] at hw
    have h1 := runEvents_size true (fieldsSize fs) (fun v p n c v' => fields_size env fs fs hw.2 v p n c v') _ _ _ h
    have h2 := eventsL_size fs cs []
    show fieldsSize fs v' ≤ fieldsSize fs v + (0 + _)
    omega
  | .ptr t, nm, om, hw, v, name, cs, v', h => by
    unfold Ty.wf at hw
    rw [Bool.and_eq_true] at hw
    unfold Ty.dec at h
    cases hr : t.dec env ((show Option t.Den from v).getD t.zero) name cs with
    | error e => erw [hr] at h; cases h
    | ok x =>
      erw [hr] at h
      cases h
      have h1 := ty_size env t _ _ hw.2 _ _ _ _ hr
      rw [over_single hw.1] at h1
      have h2 : tySize t ((show Option t.Den from v).getD t.zero) ≤ tySize (.ptr t) v := by
        show _ ≤ (match (show Option t.Den from v) with
          | none => 0
          | some x => 1 + tySize t x)
        cases (show Option t.Den from v) with
        | none => exact Nat.le_of_eq (zero_size t)
        | some y => show tySize t y ≤ 1 + tySize t y; omega
      show 1 + tySize t x ≤ _ + (1 + _)
      omega
  | .slice t, nm, om, hw, v, name, cs, v', h => by
    unfold Ty.wf at hw
    rw [Bool.and_eq_true, Bool.and_eq_true] at hw
    unfold Ty.dec at h
    cases hr : t.dec env t.zero name cs with
    | error e => erw [hr] at h; cases h
    | ok x =>
      erw [hr] at h
      cases h
      have h1 := ty_size env t _ _ hw.2 _ _ _ _ hr
      rw [over_single hw.1.1, zero_size t] at h1
      show (List.map (fun x => 1 + tySize t x) ((show List t.Den from v) ++ [x])).sum ≤
        (List.map (fun x => 1 + tySize t x) (show List t.Den from v)).sum + (1 + _)
      rw [sum_snoc]
      omega
  | .msgSets fs, nm, om, hw, v, name, cs, v', h => by
    unfold Ty.wf at hw
    simp only [Bool.and_eq_true] at hw
    unfold Ty.dec at h
    have h1 : ∀ x y, runEvents false (fun v p n c => fs.dec env v p n c) fs.zero (fs.eventsL [] x) = .ok y →
        fieldsSize fs y ≤ nodesSize x := by
      intro x y hy
      have h1 := runEvents_size false (fieldsSize fs) (fun v p n c v' => fields_size env fs fs hw.1.1.2 v p n c v') _ _ _ hy
      have h2 := eventsL_size fs x []
      rw [fields_zero_size fs] at h1
      omega
    have h2 := mapE_size _ (decMsgSet_size _ h1) (cs.filter (fun c => !isBlank c))
    cases hr : mapE (decMsgSet (fun x => runEvents false (fun v p n c => fs.dec env v p n c) fs.zero (fs.eventsL [] x)))
        (cs.filter (fun c => !isBlank c)) with
    | error e => erw [hr] at h; cases h
    | ok xs =>
      erw [hr] at h
      cases h
      have h3 := h2 xs hr
      have h4 := nodesSize_filter (fun c => !isBlank c) cs
      show (List.map (fun (x : Str × Str × fs.Den) => 1 + bytes x.2.1 + fieldsSize fs x.2.2) ((show List (Str × Str × fs.Den) from v) ++ xs)).sum ≤
        (List.map (fun (x : Str × Str × fs.Den) => 1 + bytes x.2.1 + fieldsSize fs x.2.2) (show List (Str × Str × fs.Den) from v)).sum + (0 + _)
      rw [List.map_append, List.sum_append]
      omega
theorem fields_size (env : Env) : (fs : Fields) → ∀ full, fs.wf full = true → ∀ v p n cs v', fs.dec env v p n cs = .ok v' →
    fieldsSize fs v' ≤ fieldsSize fs v + (1 + nodesSize cs)
  | .nil, full, hw, v, p, n, cs, v', h => Nat.zero_le _
  | .field path name om t rest, full, hw, v, p, n, cs, v', h => by
    unfold Fields.wf at hw
    simp only [Bool.and_eq_true] at hw
    unfold Fields.dec at h
    by_cases hp : (path == p && name == n) = true
    · rw [if_pos hp] at h
      cases hr : t.dec env v.1 n cs with
      | error e => erw [hr] at h; cases h
      | ok x =>
        erw [hr] at h
        cases h
        have h1 := ty_size env t _ _ hw.1.2 _ _ _ _ hr
        have h2 := over_le t
        show tySize t x + fieldsSize rest v.2 ≤ tySize t v.1 + fieldsSize rest v.2 + _
        omega
    · rw [if_neg hp] at h
      cases hr : rest.dec env v.2 p n cs with
      | error e => erw [hr] at h; cases h
      | ok x =>
        erw [hr] at h
        cases h
        have h1 := fields_size env rest full hw.2 _ _ _ _ _ hr
        show tySize t v.1 + fieldsSize rest x ≤ tySize t v.1 + fieldsSize rest v.2 + _
        omega
  | .alts as rest, full, hw, v, p, n, cs, v', h => by
    unfold Fields.wf at hw
    simp only [Bool.and_eq_true] at hw
    unfold Fields.dec at h
    by_cases hp : (p == [] && as.has n) = true
    · rw [if_pos hp] at h
      cases hr : as.dec env n cs with
      | error e => erw [hr] at h; cases h
      | ok x =>
        erw [hr] at h
        cases h
        have h1 := alt_size env as hw.1.2 _ _ _ hr
        show (List.map (fun x => 1 + altSize as x) ((show List as.Den from v.1) ++ [x])).sum + fieldsSize rest v.2 ≤
          (List.map (fun x => 1 + altSize as x) (show List as.Den from v.1)).sum + fieldsSize rest v.2 + _
        rw [sum_snoc]
        omega
    · rw [if_neg hp] at h
      cases hr : rest.dec env v.2 p n cs with
      | error e => erw [hr] at h; cases h
      | ok x =>
        erw [hr] at h
        cases h
        have h1 := fields_size env rest full hw.2 _ _ _ _ _ hr
        show (List.map (fun x => 1 + altSize as x) (show List as.Den from v.1)).sum + fieldsSize rest x ≤
          (List.map (fun x => 1 + altSize as x) (show List as.Den from v.1)).sum + fieldsSize rest v.2 + _
        omega
theorem alt_size (env : Env) : (as : Alts) → as.wf = true → ∀ n cs v', as.dec env n cs = .ok v' →
    altSize as v' ≤ nodesSize cs
  | .nil, hw, n, cs, v', h => Nat.zero_le _
  | .alt dec _ t rest, hw, n, cs, v', h => by
    unfold Alts.wf at hw
    simp only [Bool.and_eq_true] at hw
    unfold Alts.dec at h
    by_cases hn : (n == dec) = true
    · rw [if_pos hn] at h
      cases hr : t.dec env t.zero n cs with
      | error e => erw [hr] at h; cases h
      | ok x =>
        erw [hr] at h
        cases h
        have h1 := ty_size env t _ _ hw.1.2 _ _ _ _ hr
        rw [over_struct hw.1.1.2, zero_size t] at h1
        show tySize t x ≤ _
        omega
    · rw [if_neg hn] at h
      cases hr : rest.dec env n cs with
      | error e => erw [hr] at h; cases h
      | ok x =>
        erw [hr] at h
        cases h
        exact alt_size env rest hw.2 _ _ _ hr
end

theorem decodeNew_size {α : Type} [OfxType α] {env : Env} {name : Str} {cs : List Node} {x : α}
    (h : decodeNew env name cs = .ok x) : valueSize x ≤ nodesSize cs := by
  unfold decodeNew at h
  cases hr : (OfxType.ty α).dec env (OfxType.ty α).zero name cs with
  | error e => rw [hr] at h; cases h
  | ok d =>
    rw [hr] at h
    cases h
    obtain ⟨nm, hn⟩ : ∃ nm, ∀ l, OfxType.lit α = some l → l = nm := by
      cases OfxType.lit α with
      | none => exact ⟨[], by intro l hl; cases hl⟩
      | some l => exact ⟨l, by intro l' hl; cases hl; rfl⟩
    have h1 := ty_size env (OfxType.ty α) nm false (OfxType.wf nm hn) _ _ _ _ hr
    rw [over_single OfxType.single, zero_size] at h1
    unfold valueSize
    rw [OfxType.toDen_ofDen]
    omega

/-! ### Messages and responses -/

theorem map_eq_ok {α β : Type} {e : Except String α} {f : α → β} {y : β} (h : e.map f = .ok y) : ∃ x, e = .ok x ∧ f x = y := by
  cases e with
  | error e => cases h
  | ok x => cases h; exact ⟨x, rfl, rfl⟩

theorem decodeMessage_size {env : Env} {set : MsgSet} {n : Str} {cs : List Node} {m : Message}
    (h : decodeMessage env set n cs = .ok m) : messageSize m ≤ nodesSize cs := by
  cases set <;> simp only [decodeMessage] at h
  all_goals
    first
    | cases h
    | (split_ifs at h <;>
        first
        | cases h
        | (obtain ⟨x, hx, rfl⟩ := map_eq_ok h; exact decodeNew_size hx))

/-- The lists of messages of a response. -/
def setsSize (sz : Message → Nat) (f : MsgSet → List Message) : Nat := (responseOrder.map (fun s => ((f s.1).map sz).sum)).sum

theorem setsSize_update (sz : Message → Nat) (f : MsgSet → List Message) (s : MsgSet) (ms : List Message) :
    setsSize sz (Function.update f s (f s ++ ms)) ≤ setsSize sz f + (ms.map sz).sum := by
  unfold setsSize
  cases s <;> simp [responseOrder, Function.update] <;> omega

theorem decodeSets_size (env : Env) : ∀ (cs : List Node) (f g : MsgSet → List Message), decodeSets env f cs = .ok g →
    setsSize (fun m => 1 + messageSize m) g ≤ setsSize (fun m => 1 + messageSize m) f + nodesSize cs
  | [], f, g, h => by cases h; exact Nat.le_add_right _ _
  | .text s :: cs, f, g, h => by cases h
  | .misc :: cs, f, g, h => by cases h
  | .elem n ch :: cs, f, g, h => by
    unfold decodeSets at h
    cases hs : setOfName n with
    | none => rw [hs] at h; cases h
    | some s =>
      rw [hs] at h
      simp only at h
      cases hm : decodeMessageSet env s ch with
      | error e => rw [hm] at h; cases h
      | ok ms =>
        rw [hm] at h
        have ih := decodeSets_size env cs _ g h
        have h1 : (ms.map (fun m => 1 + messageSize m)).sum ≤ nodesSize ch := by
          refine Nat.le_trans (mapE_size _ ?_ _ ms hm) (nodesSize_filter _ _)
          intro nd x hx
          cases nd with
          | text s => cases hx
          | misc => cases hx
          | elem nn cc =>
            have := decodeMessage_size (show decodeMessage env s nn cc = .ok x from hx)
            show _ ≤ 1 + bytes nn + nodesSize cc
            omega
        have h2 := setsSize_update (fun m => 1 + messageSize m) f s ms
        show _ ≤ _ + (1 + bytes n + nodesSize ch + nodesSize cs)
        omega

theorem firstElem_size : ∀ {cs : List Node} {n : Str} {ch rest : List Node}, firstElem cs = some (n, ch, rest) →
    nodesSize ch ≤ nodesSize cs
  | .elem m c :: cs, n, ch, rest, h => by
    cases h
    show _ ≤ 1 + bytes m + nodesSize c + nodesSize cs
    omega
  | .text s :: cs, n, ch, rest, h => by
    have := firstElem_size (cs := cs) h
    show _ ≤ bytes s + nodesSize cs
    omega
  | .misc :: cs, n, ch, rest, h => by
    have := firstElem_size (cs := cs) h
    show _ ≤ 0 + nodesSize cs
    omega

theorem decodeSignon_size {env : Env} {cs : List Node} {so : SignonResponse} (h : decodeSignon env cs = .ok so) :
    valueSize so ≤ nodesSize cs := by
  unfold decodeSignon at h
  cases hf : firstElem cs with
  | none => rw [hf] at h; cases h
  | some p =>
    obtain ⟨n, ch, rest⟩ := p
    rw [hf] at h
    simp only at h
    have h1 := firstElem_size hf
    cases hd : decodeNew (α := SignonResponse) env n ch with
    | error e => rw [hd] at h; cases h
    | ok x =>
      rw [hd] at h
      simp only at h
      by_cases hb : rest.all isBlank = true
      · rw [if_pos hb] at h
        cases h
        exact Nat.le_trans (decodeNew_size hd) h1
      · rw [if_neg hb] at h; cases h

theorem decodeOfx_size {env : Env} {v : Nat} {root : Node} {r : Response Message} (h : decodeOfx env v root = .ok r) :
    responseSize r ≤ nodeSize root := by
  cases root with
  | text s => cases h
  | misc => cases h
  | elem n cs =>
    unfold decodeOfx at h
    simp only at h
    by_cases hn : n = "OFX".toList
    · rw [if_pos hn] at h
      have hf := nodesSize_filter (fun c => !isBlank c) cs
      generalize cs.filter (fun c => !isBlank c) = l at h hf
      match l, h with
      | .elem sn sc :: rest, h =>
        unfold decodeOfxChildren at h
        simp only at h
        by_cases hs : sn = (MsgType.rs .signon).string
        · rw [if_pos hs] at h
          cases hd : decodeSignon env sc with
          | error e => rw [hd] at h; cases h
          | ok so =>
            rw [hd] at h
            simp only at h
            cases hg : decodeSets env (fun _ => []) rest with
            | error e => rw [hg] at h; cases h
            | ok g =>
              rw [hg] at h
              cases h
              have h1 := decodeSignon_size hd
              have h2 := decodeSets_size env rest _ g hg
              have h3 : setsSize (fun m => 1 + messageSize m) (fun _ => []) = 0 := rfl
              rw [h3] at h2
              have hf : 1 + bytes sn + nodesSize sc + nodesSize rest ≤ nodesSize cs := hf
              show valueSize so + setsSize (fun m => 1 + messageSize m) g ≤ 1 + bytes n + nodesSize cs
              omega
        · rw [if_neg hs] at h; cases h
    · rw [if_neg hn] at h; cases h

/-! ### Elements and documents -/

def tokSize : Tok → Nat
  | .start n => 1 + bytes n
  | .text s => bytes s
  | _ => 0

def toksSize (ts : List Tok) : Nat := (ts.map tokSize).sum

theorem toksSize_append (a b : List Tok) : toksSize (a ++ b) = toksSize a + toksSize b := by simp [toksSize]

theorem toksSize_cons (t : Tok) (ts : List Tok) : toksSize (t :: ts) = tokSize t + toksSize ts := by simp [toksSize]

theorem content_size {sgml : Bool} {n : Str} {ts rest : List Tok} {cs : List Node} (h : Content sgml n ts cs rest) :
    nodesSize cs + toksSize rest ≤ toksSize ts := by
  induction h with
  | closed =>
    rw [toksSize_cons]
    show 0 + _ ≤ _
    omega
  | leftOpen _ _ => show 0 + _ ≤ _; omega
  | @text n s ts rest cs _ ih =>
    rw [toksSize_cons]
    show bytes s + nodesSize cs + _ ≤ bytes s + _
    omega
  | @misc n t ts rest cs _ _ _ ih =>
    rw [toksSize_cons]
    show 0 + nodesSize cs + _ ≤ _
    omega
  | @child n m ts ts' rest ch cs _ _ _ ih1 ih2 =>
    rw [toksSize_cons]
    show 1 + bytes m + nodesSize ch + nodesSize cs + _ ≤ 1 + bytes m + _
    omega

theorem reference_length {e : Str} {c : Char} (h : Reference e c) : 4 ≤ e.length := by
  cases h with
  | named h =>
    simp only [entities, List.mem_cons, Prod.mk.injEq, List.not_mem_nil, or_false] at h
    rcases h with ⟨rfl, -⟩ | ⟨rfl, -⟩ | ⟨rfl, -⟩ | ⟨rfl, -⟩ | ⟨rfl, -⟩ <;> decide
  | decimal h _ _ =>
    have := List.length_pos_iff.mpr h.1
    simp only [List.length_append, List.length_cons, List.length_nil]; omega
  | hex h _ _ _ =>
    have := List.length_pos_iff.mpr h
    simp only [List.length_append, List.length_cons, List.length_nil]; omega

theorem chars_size {sgml : Bool} {raw s : Str} (h : Chars sgml raw s) : bytes s ≤ bytes raw := by
  have h1 : Char.utf8Size '\n' = 1 := rfl
  have h2 : Char.utf8Size '\r' = 1 := rfl
  induction h with
  | nil => exact Nat.le_refl _
  | plain _ _ _ _ ih => rw [bytes_char, bytes_char]; omega
  | crlf _ ih => rw [bytes_char, bytes_char, bytes_char]; omega
  | cr _ _ ih => rw [bytes_char, bytes_char]; omega
  | @ref e raw s c hr _ _ ih =>
    have h3 := reference_length hr
    have h4 := length_le_bytes e
    have h5 := c.utf8Size_le_four
    rw [bytes_append, bytes_char]; omega
  | amp _ _ _ ih => rw [bytes_char, bytes_char]; omega

theorem cdata_size {raw s : Str} (h : CDataText raw s) : bytes s ≤ bytes raw := by
  have h1 : Char.utf8Size '\n' = 1 := rfl
  have h2 : Char.utf8Size '\r' = 1 := rfl
  induction h with
  | nil => exact Nat.le_refl _
  | plain _ _ _ ih => rw [bytes_char, bytes_char]; omega
  | crlf _ ih => rw [bytes_char, bytes_char, bytes_char]; omega
  | cr _ _ ih => rw [bytes_char, bytes_char]; omega

theorem markup_size {sgml : Bool} {nt : NameTable} {m : Str} {ts : List Tok} (h : Markup sgml nt m ts) :
    toksSize ts ≤ bytes m := by
  have h1 : bytes ['<'] = 1 := rfl
  cases h with
  | @start n s _ _ _ =>
    show 1 + bytes n + 0 ≤ _
    rw [bytes_append, bytes_append]; omega
  | @empty n s _ _ _ =>
    show 1 + bytes n + (0 + 0) ≤ _
    rw [bytes_append, bytes_append]; omega
  | stop _ _ => exact Nat.zero_le _
  | instruction _ _ _ _ _ _ => exact Nat.zero_le _
  | comment _ => exact Nat.zero_le _
  | @cdata raw s _ h =>
    have := cdata_size h
    show bytes s + 0 ≤ _
    rw [bytes_append, bytes_append]; omega
  | directive _ _ _ => exact Nat.zero_le _

theorem pieces_size {sgml : Bool} {nt : NameTable} {s : Str} {ts : List Tok} (h : Pieces sgml nt s ts) :
    toksSize ts ≤ bytes s := by
  induction h with
  | nil => exact Nat.le_refl _
  | @chars raw t s ts _ _ hc _ _ ih =>
    have := chars_size hc.2
    rw [toksSize_cons, bytes_append]
    show bytes t + _ ≤ _
    omega
  | markup hm _ ih =>
    have := markup_size hm
    rw [toksSize_append, bytes_append]
    omega

theorem document_size {nt : NameTable} {bs : List UInt8} {v : Nat} {root : Node} (h : Document nt bs v root) :
    nodeSize root ≤ bs.length := by
  cases h with
  | @sgml n head tail s name w ts rest cs hbs _ _ _ _ _ hp _ hc hr =>
    have h1 := pieces_size hp
    have h2 := content_size hc
    have h3 := bytes_toBytes s
    rw [toksSize_append, toksSize_cons] at h1
    have h1 : toksSize w + (1 + bytes name + toksSize ts) ≤ bytes s := h1
    rw [hr, hbs, List.length_append, List.length_append]
    show 1 + bytes name + nodesSize cs ≤ _
    omega
  | @xml n tail s decl inst name attrs w w' w'' ts rest cs hbs _ hp _ _ _ _ _ _ hc hr =>
    have h1 := pieces_size hp
    have h2 := content_size hc
    have h3 := bytes_toBytes s
    rw [toksSize_append, toksSize_cons, toksSize_append, toksSize_cons, toksSize_append, toksSize_cons] at h1
    have h4 : tokSize (.start name) = 1 + bytes name := rfl
    rw [hr, hbs, List.length_append]
    show 1 + bytes name + nodesSize cs ≤ _
    omega

end Ofx
