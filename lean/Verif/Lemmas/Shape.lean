import Verif.Codec.Text
import Verif.Lemmas.Written
import Verif.Lemmas.EncodeOk
/-
What is encoded is well shaped, and printing it gives a layout of it.
-/
namespace Ofx
open Spec

/-! ### Texts of leaves -/

def AllXml (s : Str) : Prop := ∀ c ∈ s, XmlChar c

theorem AllXml.nil : AllXml [] := fun _ h => by cases h

theorem AllXml.cons {c : Char} {s : Str} (hc : XmlChar c) (hs : AllXml s) : AllXml (c :: s) := by
  intro d hd
  rcases List.mem_cons.mp hd with rfl | hd
  · exact hc
  · exact hs d hd

theorem AllXml.append {a b : Str} (ha : AllXml a) (hb : AllXml b) : AllXml (a ++ b) := by
  intro d hd
  rcases List.mem_append.mp hd with hd | hd
  · exact ha d hd
  · exact hb d hd

theorem AllXml.of_all {s : Str} (h : s.all isXmlChar = true) : AllXml s :=
  fun c hc => (xmlChar_iff c).mpr (List.all_eq_true.mp h c hc)

theorem allXml_digits {s : Str} (h : ∀ c ∈ s, isDigit c = true) : AllXml s := by
  intro c hc
  have := h c hc
  simp only [isDigit, Bool.and_eq_true, decide_eq_true_eq] at this
  right; right; right; left
  omega

theorem allXml_nat (n : Nat) : AllXml (natStr n) := allXml_digits (natStr_digits n)

theorem allXml_pad (w n : Nat) : AllXml (padZero w (natStr n)) := allXml_digits (padZero_digits (natStr_digits n))

theorem allXml_int (i : Int) : AllXml (intStr i) := by
  unfold intStr
  split
  · exact .cons (by decide) (allXml_nat _)
  · exact allXml_nat _

theorem allXml_sublist {a b : Str} (h : a.Sublist b) (hb : AllXml b) : AllXml a := fun c hc => hb c (h.subset hc)

theorem allXml_amount (x : Rat) : AllXml (Amount.marshal x) := by
  have h : AllXml (floatString x 100) := by
    have hs : ∀ b : Bool, AllXml (if b = true then ['-'] else []) := by
      intro b
      cases b
      · exact AllXml.nil
      · exact .cons (by decide) .nil
    have hs' : AllXml (if x.num < 0 then ['-'] else []) := by
      by_cases h0 : x.num < 0
      · rw [if_pos h0]; exact .cons (by decide) .nil
      · rw [if_neg h0]; exact .nil
    unfold floatString
    simp only
    split
    · refine ((hs'.append (allXml_nat _)).append (.cons (by decide) .nil)).append ?_
      exact allXml_digits (fun c hc => by rw [(List.mem_replicate.mp hc).2]; rfl)
    · exact ((hs'.append (allXml_nat _)).append (.cons (by decide) .nil)).append (allXml_pad _ _)
  have ht : ∀ (c : Char) (s : Str), (trimRightC c s).Sublist s := by
    intro c s
    unfold trimRightC trimRightP
    have := (List.dropWhile_sublist (l := s.reverse) (fun x => x == c)).reverse
    rwa [List.reverse_reverse] at this
  unfold Amount.marshal Amount.string
  exact allXml_sublist ((ht _ _).trans (ht _ _)) h

theorem allXml_date (t : GoTime) (hz : AllXml t.zone) : AllXml (Date.marshal t) := by
  have hf : AllXml (Date.format t) := by
    unfold Date.format
    simp only
    refine (((((AllXml.append ?_ (allXml_pad _ _)).append (allXml_pad _ _)).append (allXml_pad _ _)).append
      (allXml_pad _ _)).append (allXml_pad _ _)).append (.cons (by decide) (allXml_pad _ _))
    split
    · exact .cons (by decide) (allXml_pad _ _)
    · exact allXml_pad _ _
  have h1 : AllXml (if t.off < 0 then Date.format t ++ '[' :: fmtPlusPad 0 (t.off.tdiv 3600)
      else Date.format t ++ '[' :: intStr (t.off.tdiv 3600)) := by
    split
    · refine hf.append (.cons (by decide) ?_)
      unfold fmtPlusPad
      refine .cons ?_ (allXml_pad _ _)
      split <;> decide
    · exact hf.append (.cons (by decide) (allXml_int _))
  unfold Date.marshal Date.string
  simp only
  generalize (if t.off < 0 then Date.format t ++ '[' :: fmtPlusPad 0 (t.off.tdiv 3600)
      else Date.format t ++ '[' :: intStr (t.off.tdiv 3600)) = f at h1
  have h2 : AllXml (if (t.off.tmod 3600).tdiv 36 > 0 then f ++ '.' :: fmtPad 2 ((t.off.tmod 3600).tdiv 36).natAbs
      else if (t.off.tmod 3600).tdiv 36 < 0 then f ++ '.' :: fmtPad 2 ((t.off.tmod 3600).tdiv 36).natAbs else f) := by
    split
    · exact h1.append (.cons (by decide) (allXml_pad _ _))
    · split
      · exact h1.append (.cons (by decide) (allXml_pad _ _))
      · exact h1
  generalize (if (t.off.tmod 3600).tdiv 36 > 0 then f ++ '.' :: fmtPad 2 ((t.off.tmod 3600).tdiv 36).natAbs
      else if (t.off.tmod 3600).tdiv 36 < 0 then f ++ '.' :: fmtPad 2 ((t.off.tmod 3600).tdiv 36).natAbs else f) = g at h2
  split
  · exact (h2.append (.cons (by decide) hz)).append (.cons (by decide) .nil)
  · exact h2.append (.cons (by decide) .nil)

/-- Names and enumeration texts that are fine. -/
def asciiNameB (n : Str) : Bool :=
  (match n with
    | [] => false
    | c :: _ => c.isAlpha || c == '_') &&
  n.all (fun c => c.isAlphanum || c == '_' || c == '.' || c == '-')

theorem asciiNameB_iff (n : Str) : asciiNameB n = true ↔ AsciiName n := by
  unfold asciiNameB AsciiName
  simp only [Bool.and_eq_true, List.all_eq_true, Bool.or_eq_true, beq_iff_eq]
  refine and_congr ?_ ?_
  · cases n with
    | nil => simp
    | cons c cs => simp
  · refine forall_congr' fun c => forall_congr' fun _ => ?_
    tauto

def containerB (n : Str) : Bool := asciiNameB n && !leafElements.contains n

theorem containerB_iff (n : Str) : containerB n = true ↔ ContainerName n := by
  unfold containerB ContainerName
  rw [Bool.and_eq_true, asciiNameB_iff]
  simp

def leafNamesB : Leaf → Bool
  | .enum t => t.names.all (fun s => s.all isXmlChar)
  | _ => true

mutual
/-- The declared names are element names, and none of a structure is that of a leaf. -/
def TyNames : Ty → Str → Bool
  | .leaf l, n => asciiNameB n && leafNamesB l
  | .struct .none fs, n => containerB n && FieldsNames fs
  | .struct (.tag t) fs, _ => containerB t && FieldsNames fs
  | .struct .free fs, n => containerB n && FieldsNames fs
  | .closed lit _ fs, _ => containerB lit && FieldsNames fs
  | .ptr t, n => TyNames t n
  | .slice t, n => TyNames t n
  | .msgSets fs, _ => FieldsNames fs
def FieldsNames : Fields → Bool
  | .nil => true
  | .field path name _ t rest => path.all containerB && TyNames t name && FieldsNames rest
  | .alts as rest => AltsNames as && FieldsNames rest
def AltsNames : Alts → Bool
  | .nil => true
  | .alt _ enc t rest => containerB enc && TyNames t enc && AltsNames rest
end

theorem print_xml {l : Leaf} {v : l.Den} {s : Str} (hn : leafNamesB l = true) (hv : LeafText l v) (h : l.print v = some s) :
    AllXml s := by
  cases l with
  | str => cases h; exact hv
  | uid => cases h; exact hv
  | int => cases h; exact allXml_int _
  | bool =>
    cases h
    unfold Boolean.marshal
    split <;> exact .cons (by decide) .nil
  | amount => cases h; exact allXml_amount _
  | date => cases h; exact allXml_date _ hv
  | curr => cases h; exact hv
  | enum t =>
    simp only [Leaf.print] at h
    have : ∀ o : Outcome (Option Str), (match o with
        | .ret s => s
        | .panic => none) = some s → o = .ret (some s) := by
      intro o ho
      cases o with
      | ret x => simp only at ho; rw [ho]
      | panic => cases ho
    have h := this _ h
    unfold EnumTable.marshal at h
    split at h
    · cases h
    · cases hg : t.names[(show Nat from v) - 1]? with
      | none => erw [hg] at h; cases h
      | some x =>
        erw [hg] at h
        cases h
        have hm := List.mem_of_getElem? hg
        exact AllXml.of_all (List.all_eq_true.mp hn _ hm)

/-! ### Trees -/

def AllShaped (ns : List Node) : Prop := ∀ n ∈ ns, Shaped n

theorem AllShaped.nil : AllShaped [] := fun _ h => by cases h

theorem AllShaped.append {a b : List Node} (ha : AllShaped a) (hb : AllShaped b) : AllShaped (a ++ b) := by
  intro d hd
  rcases List.mem_append.mp hd with hd | hd
  · exact ha d hd
  · exact hb d hd

theorem AllShaped.single {n : Node} (h : Shaped n) : AllShaped [n] := fun d hd => by
  rw [List.mem_singleton.mp hd]; exact h

def GoodItemShape (it : Item) : Prop := (∀ p ∈ it.path, ContainerName p) ∧ AllShaped it.nodes

theorem emitGo_shaped {inner : List Item → List Node} (hi : ∀ its, (∀ it ∈ its, GoodItemShape it) → AllShaped (inner its)) :
    ∀ (items : List Item) (cur : Option (Str × List Item)), (∀ it ∈ items, GoodItemShape it) →
      (∀ c ∈ cur, ContainerName c.1 ∧ ∀ it ∈ c.2, GoodItemShape it) → AllShaped (emitGo inner cur items) := by
  have hclose : ∀ cur : Option (Str × List Item), (∀ c ∈ cur, ContainerName c.1 ∧ ∀ it ∈ c.2, GoodItemShape it) →
      AllShaped (closeGroup inner cur) := by
    intro cur hc
    cases cur with
    | none => exact .nil
    | some c => exact .single (.node (hc c rfl).1 (hi _ (hc c rfl).2))
  intro items
  induction items with
  | nil => intro cur _ hc; rw [emitGo]; exact hclose cur hc
  | cons it rest ih =>
    intro cur hit hc
    have h0 := hit it (List.mem_cons_self ..)
    have hr : ∀ it ∈ rest, GoodItemShape it := fun x hx => hit x (List.mem_cons_of_mem _ hx)
    obtain ⟨path, o, ns⟩ := it
    cases path with
    | nil =>
      rw [emitGo]
      exact ((hclose cur hc).append h0.2).append (ih none hr (by intro c hc; cases hc))
    | cons h t =>
      have hn : ∀ c ∈ (if o = true then some (h, [(⟨t, o, ns⟩ : Item)]) else none), ContainerName c.1 ∧ ∀ it ∈ c.2, GoodItemShape it := by
        intro c hcc
        cases o with
        | false => cases hcc
        | true =>
          cases hcc
          refine ⟨h0.1 h (List.mem_cons_self ..), ?_⟩
          intro x hx
          rw [List.mem_singleton.mp hx]
          exact ⟨fun p hp => h0.1 p (List.mem_cons_of_mem _ hp), h0.2⟩
      cases cur with
      | none => rw [emitGo]; exact ih _ hr hn
      | some c =>
        obtain ⟨h', acc⟩ := c
        rw [emitGo]
        by_cases he : h = h'
        · rw [if_pos he]
          refine ih _ hr ?_
          intro c hcc
          cases hcc
          refine ⟨(hc _ rfl).1, ?_⟩
          intro x hx
          rcases List.mem_append.mp hx with hx | hx
          · exact (hc _ rfl).2 x hx
          · rw [List.mem_singleton.mp hx]
            exact ⟨fun p hp => h0.1 p (List.mem_cons_of_mem _ hp), h0.2⟩
        · rw [if_neg he]
          exact (hclose _ hc).append (ih _ hr hn)

theorem emit_shaped (d : Nat) : ∀ items : List Item, (∀ it ∈ items, GoodItemShape it) → AllShaped (emit d items) := by
  induction d with
  | zero =>
    intro items h n hn
    rw [emit] at hn
    obtain ⟨it, hi, hn⟩ := List.mem_flatMap.mp hn
    exact (h it hi).2 n hn
  | succ d ih =>
    intro items h
    rw [emit]
    exact emitGo_shaped ih items none h (by intro c hc; cases hc)

theorem mapE_mem {α β : Type} {f : α → Except String β} {l : List α} {ys : List β} (h : mapE f l = .ok ys) :
    ∀ y ∈ ys, ∃ x ∈ l, f x = .ok y := by
  induction l generalizing ys with
  | nil => simp only [mapE, Except.ok.injEq] at h; subst h; intro y hy; cases hy
  | cons a l ih =>
    simp only [mapE] at h
    cases hf : f a with
    | error e => rw [hf] at h; cases h
    | ok b =>
      rw [hf] at h
      simp only at h
      cases hm : mapE f l with
      | error e => rw [hm] at h; cases h
      | ok bs =>
        rw [hm] at h
        cases h
        intro y hy
        rcases List.mem_cons.mp hy with rfl | hy
        · exact ⟨a, List.mem_cons_self .., hf⟩
        · obtain ⟨x, hx, hfx⟩ := ih hm y hy
          exact ⟨x, List.mem_cons_of_mem _ hx, hfx⟩

theorem rename_shaped {n : Node} {m : Str} (hm : ContainerName m) (h : Shaped n) : Shaped (n.rename m) := by
  cases h with
  | leaf hn hs => exact .leaf hm.1 hs
  | node hn hs => exact .node hm hs

theorem trimV1_some {s short : Str} (h : trimV1 s = some short) : s = short ++ "V1".toList := by
  unfold trimV1 at h
  by_cases hs : "V1".toList.isSuffixOf s = true ∧ 2 < s.length
  · rw [if_pos hs] at h
    cases h
    obtain ⟨t, ht⟩ := List.isSuffixOf_iff_suffix.mp hs.1
    subst ht
    simp
  · rw [if_neg hs] at h; cases h

theorem encMsgSet_shaped {α : Type} {enc : α → Except String (List Item)} {depth : Nat} {x : Str × Str × α} {n : Node}
    (h : encMsgSet enc depth x = .ok n) (h1 : ContainerName x.2.1) (h2 : ∀ short, x.2.1 = short ++ "V1".toList → ContainerName short)
    (h3 : ∀ items, enc x.2.2 = .ok items → ∀ it ∈ items, GoodItemShape it) : Shaped n := by
  unfold encMsgSet at h
  cases ht : trimV1 x.2.1 with
  | none => rw [ht] at h; cases h
  | some short =>
    rw [ht] at h
    simp only at h
    cases he : enc x.2.2 with
    | error e => rw [he] at h; cases h
    | ok items =>
      rw [he] at h
      cases h
      refine .node (h2 short (trimV1_some ht)) (AllShaped.single (.node h1 ?_))
      intro c hc
      rcases List.mem_cons.mp hc with rfl | hc
      · refine .leaf ((asciiNameB_iff _).mp (by decide)) ?_
        intro d hd
        have : ∀ d : Char, d.isAlphanum = true ∨ d = '_' ∨ d = '.' ∨ d = '-' → XmlChar d := by
          intro d hd
          have hv : d.toNat = d.val.toNat := rfl
          rcases hd with hd | rfl | rfl | rfl
          · unfold Char.isAlphanum Char.isAlpha Char.isUpper Char.isLower Char.isDigit at hd
            simp only [Bool.or_eq_true, Bool.and_eq_true, decide_eq_true_eq, ge_iff_le, UInt32.le_iff_toNat_le] at hd
            have e1 : 'A'.val.toNat = 65 := rfl
            have e2 : 'Z'.val.toNat = 90 := rfl
            have e3 : 'a'.val.toNat = 97 := rfl
            have e4 : 'z'.val.toNat = 122 := rfl
            have e5 : '0'.val.toNat = 48 := rfl
            have e6 : '9'.val.toNat = 57 := rfl
            right; right; right; left
            omega
          · decide
          · decide
          · decide
        exact this d (h1.1.2 d hd)
      · exact emit_shaped depth items (h3 items he) c hc

mutual
theorem Ty.enc_shaped : (t : Ty) → ∀ (name : Str) (om : Bool) (v : t.Den) (ns : List Node), TyNames t name = true → TyText t v →
    t.enc name om v = .ok ns → AllShaped ns
  | .leaf l, name, om, v, ns, hn, hv, h => by
    simp only [TyNames, Bool.and_eq_true] at hn
    simp only [TyText] at hv
    simp only [Ty.enc] at h
    split at h
    · cases h; exact .nil
    · cases hp : l.print v with
      | none => erw [hp] at h; cases h; exact .nil
      | some s =>
        erw [hp] at h; cases h
        exact .single (.leaf ((asciiNameB_iff _).mp hn.1) (print_xml hn.2 hv hp))
  | .struct xn fs, name, om, v, ns, hn, hv, h => by
    simp only [TyText] at hv
    simp only [Ty.enc] at h
    cases he : fs.enc v.2 with
    | error e => rw [he] at h; cases h
    | ok items =>
      rw [he] at h; cases h
      have hname : ContainerName (xn.encName name v.1) ∧ FieldsNames fs = true := by
        cases xn with
        | none =>
          simp only [TyNames, Bool.and_eq_true] at hn
          exact ⟨(containerB_iff _).mp hn.1, hn.2⟩
        | tag t =>
          simp only [TyNames, Bool.and_eq_true] at hn
          exact ⟨(containerB_iff _).mp hn.1, hn.2⟩
        | free =>
          simp only [TyNames, Bool.and_eq_true] at hn
          refine ⟨?_, hn.2⟩
          have hx : (show Str from v.1) = [] ∨ ContainerName (show Str from v.1) := hv.1
          unfold XName.encName
          by_cases h0 : (show Str from v.1) = []
          · simp only; erw [if_pos h0]; exact (containerB_iff _).mp hn.1
          · simp only; erw [if_neg h0]
            rcases hx with hx | hx
            · exact absurd hx h0
            · exact hx
      exact .single (.node hname.1 (emit_shaped _ _ (fs.enc_shaped v.2 items hname.2 hv.2 he)))
  | .closed lit gs fs, name, om, v, ns, hn, hv, h => by
    simp only [TyNames, Bool.and_eq_true] at hn
    simp only [TyText] at hv
    simp only [Ty.enc] at h
    by_cases hc : (om && gs && fs.isEmpty v) = true
    · rw [if_pos hc] at h; cases h; exact .nil
    · rw [if_neg hc] at h
      cases he : fs.enc v with
      | error e => rw [he] at h; cases h
      | ok items =>
        rw [he] at h; cases h
        exact .single (.node ((containerB_iff _).mp hn.1) (emit_shaped _ _ (fs.enc_shaped v items hn.2 hv he)))
  | .ptr t, name, om, v, ns, hn, hv, h => by
    simp only [TyNames] at hn
    simp only [TyText] at hv
    simp only [Ty.enc] at h
    change Option t.Den at v
    cases v with
    | none => cases h; exact .nil
    | some x => exact t.enc_shaped name false x ns hn (hv x rfl) h
  | .slice t, name, om, v, ns, hn, hv, h => by
    simp only [TyNames] at hn
    simp only [TyText] at hv
    simp only [Ty.enc] at h
    change List t.Den at v
    cases hm : mapE (fun x => t.enc name om x) v with
    | error e => erw [hm] at h; cases h
    | ok nss =>
      erw [hm] at h; cases h
      intro n hnn
      obtain ⟨l, hl, hnl⟩ := List.mem_flatten.mp hnn
      obtain ⟨x, hx, hf⟩ := mapE_mem hm l hl
      exact t.enc_shaped name om x l hn (hv x hx) hf n hnl
  | .msgSets fs, name, om, v, ns, hn, hv, h => by
    simp only [TyNames] at hn
    simp only [TyText] at hv
    simp only [Ty.enc] at h
    change List (Str × Str × fs.Den) at v
    by_cases hc : (om && List.isEmpty v) = true
    · erw [if_pos hc] at h; cases h; exact .nil
    · erw [if_neg hc] at h
      cases hm : mapE (encMsgSet (fun y => fs.enc y) fs.depth) v with
      | error e => erw [hm] at h; cases h
      | ok ys =>
        erw [hm] at h; cases h
        refine .single (.node ((containerB_iff _).mp (by decide +kernel)) ?_)
        intro n hnn
        obtain ⟨x, hx, hf⟩ := mapE_mem hm n hnn
        obtain ⟨h1, h2, h3⟩ := hv x hx
        exact encMsgSet_shaped hf h1 h2 (fun items hi => fs.enc_shaped x.2.2 items hn h3 hi)
theorem Fields.enc_shaped : (fs : Fields) → ∀ (v : fs.Den) (items : List Item), FieldsNames fs = true → FieldsText fs v →
    fs.enc v = .ok items → ∀ it ∈ items, GoodItemShape it
  | .nil, v, items, _, _, h => by
    simp only [Fields.enc, Except.ok.injEq] at h
    subst h
    intro it hit; cases hit
  | .field path name om t rest, v, items, hn, hv, h => by
    simp only [FieldsNames, Bool.and_eq_true, List.all_eq_true] at hn
    simp only [FieldsText] at hv
    simp only [Fields.enc] at h
    cases h1 : t.enc name om v.1 with
    | error e => rw [h1] at h; cases h
    | ok ns =>
      rw [h1] at h
      simp only at h
      cases h2 : rest.enc v.2 with
      | error e => rw [h2] at h; cases h
      | ok its =>
        rw [h2] at h; cases h
        intro it hit
        rcases List.mem_cons.mp hit with rfl | hit
        · exact ⟨fun p hp => (containerB_iff p).mp (hn.1.1 p hp), t.enc_shaped name om v.1 ns hn.1.2 hv.1 h1⟩
        · exact rest.enc_shaped v.2 its hn.2 hv.2 h2 it hit
  | .alts as rest, v, items, hn, hv, h => by
    simp only [FieldsNames, Bool.and_eq_true] at hn
    simp only [FieldsText] at hv
    simp only [Fields.enc] at h
    cases h1 : mapE (fun x => as.enc x) v.1 with
    | error e => rw [h1] at h; cases h
    | ok nss =>
      rw [h1] at h
      simp only at h
      cases h2 : rest.enc v.2 with
      | error e => rw [h2] at h; cases h
      | ok its =>
        rw [h2] at h; cases h
        intro it hit
        rcases List.mem_cons.mp hit with rfl | hit
        · refine ⟨fun p hp => (by cases hp), ?_⟩
          intro n hnn
          obtain ⟨l, hl, hnl⟩ := List.mem_flatten.mp hnn
          obtain ⟨x, hx, hf⟩ := mapE_mem h1 l hl
          exact as.enc_shaped x l hn.1 (hv.1 x hx) hf n hnl
        · exact rest.enc_shaped v.2 its hn.2 hv.2 h2 it hit
theorem Alts.enc_shaped : (as : Alts) → ∀ (v : as.Den) (ns : List Node), AltsNames as = true → AltsText as v →
    as.enc v = .ok ns → AllShaped ns
  | .nil, v, _, _, _, _ => (show Empty from v).elim
  | .alt dec enc t rest, v, ns, hn, hv, h => by
    simp only [AltsNames, Bool.and_eq_true] at hn
    simp only [AltsText] at hv
    simp only [Alts.enc] at h
    change t.Den ⊕ rest.Den at v
    cases v with
    | inl x =>
      replace h : (match t.enc enc false x with
        | .ok ns => Except.ok (ns.map (Node.rename enc))
        | .error e => .error e) = .ok ns := h
      cases h1 : t.enc enc false x with
      | error e => rw [h1] at h; cases h
      | ok l =>
        rw [h1] at h; cases h
        intro n hnn
        obtain ⟨m, hm, rfl⟩ := List.mem_map.mp hnn
        exact rename_shaped ((containerB_iff _).mp hn.1.1) (t.enc_shaped enc false x l hn.1.2 hv h1 m hm)
    | inr y => exact rest.enc_shaped y ns hn.2 hv h
end

/-! ### Printing -/

theorem escape_written {s : Str} (h : AllXml s) : Written (escapeText s) s := by
  induction s with
  | nil => exact .nil
  | cons c s ih =>
    have hs := ih (fun d hd => h d (List.mem_cons_of_mem _ hd))
    have hc := h c (List.mem_cons_self ..)
    have e : escapeText (c :: s) = escapeChar c ++ escapeText s := by simp [escapeText]
    rw [e]
    unfold escapeChar
    by_cases h1 : c = '"'
    · subst h1; exact .ref (e := "&#34;") (by decide) hs
    by_cases h2 : c = '\''
    · subst h2; exact .ref (e := "&#39;") (by decide) hs
    by_cases h3 : c = '&'
    · subst h3; exact .ref (e := "&amp;") (by decide) hs
    by_cases h4 : c = '<'
    · subst h4; exact .ref (e := "&lt;") (by decide) hs
    by_cases h5 : c = '>'
    · subst h5; exact .ref (e := "&gt;") (by decide) hs
    by_cases h6 : c = '\t'
    · subst h6; exact .ref (e := "&#x9;") (by decide) hs
    by_cases h7 : c = '\n'
    · subst h7; exact .ref (e := "&#xA;") (by decide) hs
    by_cases h8 : c = '\r'
    · subst h8; exact .ref (e := "&#xD;") (by decide) hs
    rw [if_neg h1, if_neg h2, if_neg h3, if_neg h4, if_neg h5, if_neg h6, if_neg h7, if_neg h8, if_pos ((xmlChar_iff c).mp hc)]
    exact .plain hc h4 h3 h5 h8 hs

theorem gap_nil : Gap [] := ⟨[], .nil, fun _ h => by cases h⟩

theorem gap_lineBreak (o : PrintOpts) (depth : Nat) : Gap (lineBreak o depth) := by
  unfold lineBreak
  by_cases hi : o.indent = true
  · rw [if_pos hi]
    have hsp : ∀ k, Written (List.replicate k ' ') (List.replicate k ' ') := by
      intro k
      induction k with
      | zero => exact .nil
      | succ k ih => exact .plain (by decide) (by decide) (by decide) (by decide) (by decide) ih
    have hw : IsPadding ('\n' :: List.replicate (4 * depth) ' ') := by
      intro c hc
      rcases List.mem_cons.mp hc with rfl | hc
      · decide
      · rw [(List.mem_replicate.mp hc).2]; decide
    refine ⟨_, ?_, hw⟩
    cases o.carriageReturn
    · exact .plain (by decide) (by decide) (by decide) (by decide) (by decide) (hsp _)
    · exact .lineEnd (hsp _)
  · rw [if_neg hi]; exact gap_nil

theorem renderNode_false (o : PrintOpts) (d : Nat) {n : Node} (h : Shaped n) :
    renderNode o false d n = lineBreak o d ++ renderNode o true d n := by
  have : ∀ n cs, renderNode o false d (.elem n cs) = lineBreak o d ++ renderNode o true d (.elem n cs) := by
    intro n cs
    simp only [renderNode]
    simp
  cases h with
  | leaf => exact this _ _
  | node => exact this _ _

theorem shaped_isElem {n : Node} (h : Shaped n) : n.isElem = true := by
  cases h <;> rfl

/-- Printing a well shaped tree gives a layout of it. -/
theorem render_layout (o : PrintOpts) (sgml : Bool) (ho : o.openLeaves = true → sgml = true) {n : Node} (h : Shaped n) :
    ∀ d, Layout sgml n (renderNode o true d n) := by
  induction h with
  | leaf hn hs =>
    rename_i n s
    intro d
    have hr : renderNodes o (d + 1) (if s = [] then [] else [.text s]) = escapeText s := by
      by_cases h0 : s = []
      · subst h0; simp [renderNodes, escapeText]
      · rw [if_neg h0]; simp [renderNodes, renderNode]
    have ha : (if s = [] then [] else [Node.text s]).any Node.isElem = false := by
      by_cases h0 : s = []
      · subst h0; rfl
      · rw [if_neg h0]; rfl
    have hw := escape_written hs
    unfold textNode
    simp only [renderNode, if_true, hr, ha, Bool.false_eq_true, if_false, List.nil_append]
    by_cases hl : (o.openLeaves && leafElements.contains n) = true
    · rw [if_pos hl]
      simp only [Bool.and_eq_true, List.contains_iff_mem] at hl
      have := Layout.openLeaf (sgml := sgml) (ho hl.1) hl.2 hn hw
      simpa only [List.append_nil, textNode] using this
    · rw [if_neg hl]
      have := Layout.leaf (sgml := sgml) hn hw
      simpa only [List.append_assoc, textNode] using this
  | node hn hc ih =>
    rename_i n cs
    intro d
    have key : ∀ l : List Node, (∀ c ∈ l, Shaped c) → (∀ c ∈ l, ∀ d, Layout sgml c (renderNode o true d c)) → ∀ w, Gap w →
        Layouts sgml l (renderNodes o (d + 1) l ++ w) := by
      intro l
      induction l with
      | nil => intro _ _ w hw; simp only [renderNodes, List.nil_append]; exact .nil hw
      | cons c l ihl =>
        intro h1 h2 w hw
        have := ihl (fun x hx => h1 x (List.mem_cons_of_mem _ hx)) (fun x hx => h2 x (List.mem_cons_of_mem _ hx)) w hw
        have := Layouts.cons (gap_lineBreak o (d + 1)) (h2 c (List.mem_cons_self ..) (d + 1)) this
        simp only [renderNodes]
        rw [renderNode_false o _ (h1 c (List.mem_cons_self ..))]
        simpa only [List.append_assoc] using this
    have hlf : (o.openLeaves && leafElements.contains n) = false := by
      rw [Bool.eq_false_iff]
      intro hx
      simp only [Bool.and_eq_true, List.contains_iff_mem] at hx
      exact hn.2 hx.2
    simp only [renderNode, if_true, List.nil_append]
    rw [if_neg (by rw [hlf]; decide)]
    have hg : Gap (if cs.any Node.isElem = true then lineBreak o d else []) := by
      split
      · exact gap_lineBreak o d
      · exact gap_nil
    have := Layout.node (sgml := sgml) hn.1 (fun _ => hn.2) (key cs hc ih _ hg)
    simpa only [List.append_assoc] using this

end Ofx
