import Verif.Spec.Place
import Verif.Lemmas.SameValid
/-
Decoding on a machine is decoding on a machine whose zone has no name, followed by naming the
zones of the dates.
-/
namespace Ofx
open Spec

/-- A machine whose zone has no abbreviation. -/
def nowhere : LocalZone := fun _ => ([], 0)

theorem known_nowhere (t : GoTime) : known nowhere t = t := by
  unfold known
  by_cases h : t.zone = [] ∧ (nowhere (t.ns / nsPerSec)).2 = t.off
  · rw [if_pos h]
    obtain ⟨ns, z, off⟩ := t
    simp only [nowhere] at h ⊢
    rw [h.1]
  · rw [if_neg h]

theorem known_zero (loc : LocalZone) : known loc GoTime.zero = GoTime.zero := by
  unfold known
  rw [if_neg]
  rintro ⟨h, -⟩
  exact absurd h (by decide)

/-! ### Dates -/

theorem parseFinish_place (loc : LocalZone) (st : PState) :
    parseFinish loc st = (parseFinish nowhere st).map (known loc) := by
  unfold parseFinish
  by_cases hd : st.day < 1 ∨ st.day > daysIn st.month st.year
  · rw [if_pos hd, if_pos hd]; rfl
  rw [if_neg hd, if_neg hd]
  generalize goDate st.year st.month st.day st.hour st.minute st.second st.nsec = t
  have utc : some (⟨t, "UTC".toList, 0⟩ : GoTime) = (some (⟨t, "UTC".toList, 0⟩ : GoTime)).map (known loc) := by
    show _ = some (known loc _)
    unfold known
    rw [if_neg]
    rintro ⟨h, -⟩
    exact absurd (show "UTC".toList = [] from h) (by decide)
  by_cases hu : st.utc = true
  · simp only [hu, if_true]; exact utc
  simp only [hu]
  cases hoff : st.off with
  | none => exact utc
  | some o =>
    simp only [Bool.false_eq_true, if_false]
    generalize t - o * nsPerSec = t'
    have hn : (if (nowhere (t' / nsPerSec)).2 = o ∧ (st.zone = [] ∨ (nowhere (t' / nsPerSec)).1 = st.zone)
        then some (⟨t', (nowhere (t' / nsPerSec)).1, o⟩ : GoTime) else some ⟨t', st.zone, o⟩) = some ⟨t', st.zone, o⟩ := by
      by_cases h : (nowhere (t' / nsPerSec)).2 = o ∧ (st.zone = [] ∨ (nowhere (t' / nsPerSec)).1 = st.zone)
      · rw [if_pos h]
        have : st.zone = (nowhere (t' / nsPerSec)).1 := by
          rcases h.2 with h | h
          · rw [h]; rfl
          · exact h.symm
        rw [this]
      · rw [if_neg h]
    rw [hn]
    show _ = some (known loc ⟨t', st.zone, o⟩)
    unfold known
    simp only
    by_cases h : st.zone = [] ∧ (loc (t' / nsPerSec)).2 = o
    · rw [if_pos h, if_pos ⟨h.2, .inl h.1⟩]
    · rw [if_neg h]
      by_cases h' : (loc (t' / nsPerSec)).2 = o ∧ (st.zone = [] ∨ (loc (t' / nsPerSec)).1 = st.zone)
      · rw [if_pos h']
        rcases h'.2 with h2 | h2
        · exact absurd ⟨h2, h'.1⟩ h
        · rw [h2]
      · rw [if_neg h']

theorem timeParse_place (loc : LocalZone) (l : List Chunk) (v : Str) :
    timeParse loc l v = (timeParse nowhere l v).map (known loc) := by
  unfold timeParse
  cases parseChunks l {} v with
  | none => rfl
  | some st => exact parseFinish_place loc st

theorem tryFormats_place (loc : LocalZone) (zf : List Chunk) (v : Str) : ∀ fs,
    tryFormats loc zf v fs = (tryFormats nowhere zf v fs).map (known loc)
  | [] => rfl
  | f :: fs => by
    unfold tryFormats
    rw [timeParse_place loc]
    cases timeParse nowhere (f ++ zf) v with
    | none => exact tryFormats_place loc zf v fs
    | some t => rfl

theorem date_place (loc : LocalZone) (s : Str) : Date.unmarshal loc s = (Date.unmarshal nowhere s).map (known loc) := by
  unfold Date.unmarshal
  simp only
  generalize splitC '[' (trimSpace (splitC ']' s).1) = p
  obtain ⟨v, z⟩ := p
  cases z with
  | none => exact tryFormats_place loc _ _ _
  | some z =>
    simp only
    cases zoneOf (trimRightC ']' z) with
    | error e => rfl
    | ok x => exact tryFormats_place loc _ _ _

/-! ### Decoding -/

/-- The environment of another machine with the same currency table. -/
def Env.at (env : Env) (loc : LocalZone) : Env := ⟨loc, env.curr⟩

theorem leaf_place (env : Env) (loc : LocalZone) : (l : Leaf) → (s : Str) →
    l.parse (env.at loc) s = (l.parse (env.at nowhere) s).map (leafDates (known loc) l)
  | .date, s => date_place loc s
  | .str, s => by show _ = Except.map id _; rw [Except.map_id]; rfl
  | .uid, s => by show _ = Except.map id _; rw [Except.map_id]; rfl
  | .int, s => by show _ = Except.map id _; rw [Except.map_id]; rfl
  | .bool, s => by show _ = Except.map id _; rw [Except.map_id]; rfl
  | .amount, s => by show _ = Except.map id _; rw [Except.map_id]; rfl
  | .curr, s => by show _ = Except.map id _; rw [Except.map_id]; rfl
  | .enum t, s => by show _ = Except.map id _; rw [Except.map_id]; rfl

theorem runEvents_place {α : Type} (strict : Bool) (g : α → α) {step step' : α → List Str → Str → List Node → Except String α}
    (h : ∀ v p n c, step (g v) p n c = (step' v p n c).map g) :
    ∀ (es : List Ev) v, runEvents strict step (g v) es = (runEvents strict step' v es).map g
  | [], v => rfl
  | .hit p n cs :: es, v => by
    unfold runEvents
    rw [h]
    cases step' v p n cs with
    | error e => rfl
    | ok x => exact runEvents_place strict g h es x
  | .junk :: es, v => by
    unfold runEvents
    cases strict with
    | true => rfl
    | false => exact runEvents_place false g h es v

theorem mapE_place {α β : Type} (g : β → β) {f f' : α → Except String β} (h : ∀ x, f x = (f' x).map g) :
    ∀ l, mapE f l = (mapE f' l).map (List.map g)
  | [] => rfl
  | x :: xs => by
    unfold mapE
    rw [h, mapE_place g h xs]
    cases f' x with
    | error e => rfl
    | ok y =>
      cases mapE f' xs with
      | error e => rfl
      | ok ys => rfl

theorem decMsgSet_place {α : Type} (g : α → α) {d d' : List Node → Except String α} (h : ∀ x, d x = (d' x).map g) :
    ∀ n, decMsgSet d n = (decMsgSet d' n).map (fun x => (x.1, x.2.1, g x.2.2))
  | .elem _ ch => by
    unfold decMsgSet
    simp only
    cases onlyChild ch with
    | none => rfl
    | some p =>
      obtain ⟨n, ch'⟩ := p
      simp only
      rw [h]
      cases d' ch' with
      | error e => rfl
      | ok y => rfl
  | .text _ => rfl
  | .misc => rfl

mutual
theorem zero_dates {f : GoTime → GoTime} (hf : f GoTime.zero = GoTime.zero) : (t : Ty) → onDates f t t.zero = t.zero
  | .leaf l => by cases l <;> first | rfl | exact hf
  | .struct xn fs => by
    show (_, onFieldDates f fs fs.zero) = _
    rw [fields_zero_dates hf fs]; rfl
  | .closed _ _ fs => fields_zero_dates hf fs
  | .ptr t => rfl
  | .slice t => rfl
  | .msgSets fs => rfl
theorem fields_zero_dates {f : GoTime → GoTime} (hf : f GoTime.zero = GoTime.zero) : (fs : Fields) →
    onFieldDates f fs fs.zero = fs.zero
  | .nil => rfl
  | .field _ _ _ t rest => by
    show (onDates f t t.zero, onFieldDates f rest rest.zero) = _
    rw [zero_dates hf t, fields_zero_dates hf rest]; rfl
  | .alts as rest => by
    show (([] : List as.Den), onFieldDates f rest rest.zero) = _
    rw [fields_zero_dates hf rest]; rfl
end

mutual
theorem ty_place (env : Env) (loc : LocalZone) : (t : Ty) → ∀ v name cs,
    t.dec (env.at loc) (onDates (known loc) t v) name cs =
      (t.dec (env.at nowhere) v name cs).map (onDates (known loc) t)
  | .leaf l, v, name, cs => leaf_place env loc l (leafText cs)
  | .struct xn fs, v, name, cs => by
    unfold Ty.dec
    by_cases hx : xn.check name = true
    · simp only [hx, if_true]
      have h := runEvents_place false (onFieldDates (known loc) fs) (fun v p n c => fields_place env loc fs v p n c)
        (fs.eventsL [] cs) v.2
      erw [h]
      cases runEvents false (fun v p n c => fs.dec (env.at nowhere) v p n c) v.2 (fs.eventsL [] cs) with
      | error e => rfl
      | ok x => rfl
    · simp only [hx]; rfl
  | .closed _ _ fs, v, name, cs =>
    runEvents_place true (onFieldDates (known loc) fs) (fun v p n c => fields_place env loc fs v p n c)
        (fs.eventsL [] cs) v
  | .ptr t, v, name, cs => by
    unfold Ty.dec
    have h0 : (Option.map (onDates (known loc) t) (show Option t.Den from v)).getD t.zero =
        onDates (known loc) t ((show Option t.Den from v).getD t.zero) := by
      cases (show Option t.Den from v) with
      | none => exact (zero_dates (known_zero loc) t).symm
      | some x => rfl
    have h := ty_place env loc t ((show Option t.Den from v).getD t.zero) name cs
    rw [← h0] at h
    erw [h]
    generalize t.dec (env.at nowhere) ((show Option t.Den from v).getD t.zero) name cs = r
    cases r <;> rfl
  | .slice t, v, name, cs => by
    unfold Ty.dec
    have h := ty_place env loc t t.zero name cs
    rw [zero_dates (known_zero loc) t] at h
    erw [h]
    cases t.dec (env.at nowhere) t.zero name cs with
    | error e => rfl
    | ok x => exact congrArg Except.ok (List.map_append (f := onDates (known loc) t) (l₁ := v) (l₂ := [x])).symm
  | .msgSets fs, v, name, cs => by
    unfold Ty.dec
    have h1 : ∀ x, runEvents false (fun v p n c => fs.dec (env.at loc) v p n c) fs.zero (fs.eventsL [] x) =
        (runEvents false (fun v p n c => fs.dec (env.at nowhere) v p n c) fs.zero (fs.eventsL [] x)).map
          (onFieldDates (known loc) fs) := by
      intro x
      have h := runEvents_place false (onFieldDates (known loc) fs) (fun v p n c => fields_place env loc fs v p n c)
        (fs.eventsL [] x) fs.zero
      rw [fields_zero_dates (known_zero loc) fs] at h
      exact h
    have h2 := mapE_place _ (decMsgSet_place _ h1) (cs.filter (fun c => !isBlank c))
    erw [h2]
    generalize mapE (decMsgSet (fun x => runEvents false (fun v p n c => fs.dec (env.at nowhere) v p n c) fs.zero (fs.eventsL [] x)))
        (cs.filter (fun c => !isBlank c)) = r
    cases r with
    | error e => rfl
    | ok xs => exact congrArg Except.ok (List.map_append (l₁ := v) (l₂ := xs)).symm
theorem fields_place (env : Env) (loc : LocalZone) : (fs : Fields) → ∀ v p n cs,
    fs.dec (env.at loc) (onFieldDates (known loc) fs v) p n cs =
      (fs.dec (env.at nowhere) v p n cs).map (onFieldDates (known loc) fs)
  | .nil, v, p, n, cs => rfl
  | .field path name _ t rest, v, p, n, cs => by
    unfold Fields.dec
    by_cases h : (path == p && name == n) = true
    · rw [if_pos h, if_pos h]
      erw [ty_place env loc t v.1 n cs]
      generalize t.dec (env.at nowhere) v.1 n cs = r
      cases r <;> rfl
    · rw [if_neg h, if_neg h]
      erw [fields_place env loc rest v.2 p n cs]
      generalize rest.dec (env.at nowhere) v.2 p n cs = r
      cases r <;> rfl
  | .alts as rest, v, p, n, cs => by
    unfold Fields.dec
    by_cases h : (p == [] && as.has n) = true
    · rw [if_pos h, if_pos h]
      erw [alts_place env loc as n cs]
      generalize as.dec (env.at nowhere) n cs = r
      cases r with
      | error e => rfl
      | ok x =>
        refine congrArg Except.ok (Prod.ext ?_ rfl)
        exact (List.map_append (f := onAltDates (known loc) as) (l₁ := v.1) (l₂ := [x])).symm
    · rw [if_neg h, if_neg h]
      erw [fields_place env loc rest v.2 p n cs]
      generalize rest.dec (env.at nowhere) v.2 p n cs = r
      cases r <;> rfl
theorem alts_place (env : Env) (loc : LocalZone) : (as : Alts) → ∀ n cs,
    as.dec (env.at loc) n cs = (as.dec (env.at nowhere) n cs).map (onAltDates (known loc) as)
  | .nil, n, cs => rfl
  | .alt dec _ t rest, n, cs => by
    unfold Alts.dec
    by_cases h : (n == dec) = true
    · rw [if_pos h, if_pos h]
      have h1 := ty_place env loc t t.zero n cs
      rw [zero_dates (known_zero loc) t] at h1
      rw [h1]
      generalize t.dec (env.at nowhere) t.zero n cs = r
      cases r <;> rfl
    · rw [if_neg h, if_neg h]
      rw [alts_place env loc rest n cs]
      generalize rest.dec (env.at nowhere) n cs = r
      cases r <;> rfl
end

theorem decodeNew_place {α : Type} [OfxType α] (env : Env) (loc : LocalZone) (n : Str) (cs : List Node) :
    (decodeNew (env.at loc) n cs : Except String α) = (decodeNew (env.at nowhere) n cs).map (valueDates (known loc)) := by
  unfold decodeNew
  have h := ty_place env loc (OfxType.ty α) (OfxType.ty α).zero n cs
  rw [zero_dates (known_zero loc)] at h
  rw [h]
  cases (OfxType.ty α).dec (env.at nowhere) (OfxType.ty α).zero n cs with
  | error e => rfl
  | ok d =>
    refine congrArg Except.ok ?_
    unfold valueDates
    rw [OfxType.toDen_ofDen]

theorem decodeMessage_place (env : Env) (loc : LocalZone) (s : MsgSet) (n : Str) (cs : List Node) :
    decodeMessage (env.at loc) s n cs = (decodeMessage (env.at nowhere) s n cs).map (messageDates (known loc)) := by
  unfold decodeMessage
  have one : ∀ {α : Type} [OfxType α] (k : α → Message) (hk : ∀ x, messageDates (known loc) (k x) = k (valueDates (known loc) x)),
      (decodeNew (env.at loc) n cs : Except String α).map k =
        ((decodeNew (env.at nowhere) n cs : Except String α).map k).map (messageDates (known loc)) := by
    intro α _ k hk
    rw [decodeNew_place]
    cases (decodeNew (env.at nowhere) n cs : Except String α) with
    | error e => rfl
    | ok x => exact congrArg Except.ok (hk x).symm
  cases s <;> simp only <;> try rfl
  · by_cases h : n = "ACCTINFOTRNRS".toList
    · rw [if_pos h, if_pos h]; exact one _ (fun _ => rfl)
    · rw [if_neg h, if_neg h]; rfl
  · by_cases h : n = "STMTTRNRS".toList
    · rw [if_pos h, if_pos h]; exact one _ (fun _ => rfl)
    · rw [if_neg h, if_neg h]; rfl
  · by_cases h : n = "CCSTMTTRNRS".toList
    · rw [if_pos h, if_pos h]; exact one _ (fun _ => rfl)
    · rw [if_neg h, if_neg h]; rfl
  · by_cases h : n = "INVSTMTTRNRS".toList
    · rw [if_pos h, if_pos h]; exact one _ (fun _ => rfl)
    · rw [if_neg h, if_neg h]; rfl
  · by_cases h : n = "SECLISTTRNRS".toList
    · rw [if_pos h, if_pos h]; exact one _ (fun _ => rfl)
    · rw [if_neg h, if_neg h]
      by_cases h : n = "SECLIST".toList
      · rw [if_pos h, if_pos h]; exact one _ (fun _ => rfl)
      · rw [if_neg h, if_neg h]; rfl
  · by_cases h : n = "PROFTRNRS".toList
    · rw [if_pos h, if_pos h]; exact one _ (fun _ => rfl)
    · rw [if_neg h, if_neg h]; rfl

theorem decodeMessageSet_place (env : Env) (loc : LocalZone) (s : MsgSet) (cs : List Node) :
    decodeMessageSet (env.at loc) s cs = (decodeMessageSet (env.at nowhere) s cs).map (List.map (messageDates (known loc))) := by
  unfold decodeMessageSet
  apply mapE_place
  intro x
  cases x with
  | elem n cs => exact decodeMessage_place env loc s n cs
  | text s => rfl
  | misc => rfl

theorem decodeSets_place (env : Env) (loc : LocalZone) : ∀ (ns : List Node) (f : MsgSet → List Message),
    decodeSets (env.at loc) (fun s => (f s).map (messageDates (known loc))) ns =
      (decodeSets (env.at nowhere) f ns).map (fun g s => (g s).map (messageDates (known loc)))
  | [], f => rfl
  | .elem n cs :: rest, f => by
    unfold decodeSets
    cases setOfName n with
    | none => rfl
    | some s =>
      simp only
      rw [decodeMessageSet_place]
      cases decodeMessageSet (env.at nowhere) s cs with
      | error e => rfl
      | ok ms =>
        have h : Function.update (fun s => (f s).map (messageDates (known loc))) s
            ((f s).map (messageDates (known loc)) ++ ms.map (messageDates (known loc))) =
            fun s' => (Function.update f s (f s ++ ms) s').map (messageDates (known loc)) := by
          funext s'
          by_cases hs : s' = s
          · subst hs; rw [Function.update_self, Function.update_self, List.map_append]
          · rw [Function.update_of_ne hs, Function.update_of_ne hs]
        have h2 := decodeSets_place env loc rest (Function.update f s (f s ++ ms))
        rw [← h] at h2
        exact h2
  | .text _ :: _, f => rfl
  | .misc :: _, f => rfl

theorem decodeSignon_place (env : Env) (loc : LocalZone) (cs : List Node) :
    decodeSignon (env.at loc) cs = (decodeSignon (env.at nowhere) cs).map (valueDates (known loc)) := by
  unfold decodeSignon
  cases firstElem cs with
  | none => rfl
  | some p =>
    obtain ⟨n, ch, rest⟩ := p
    simp only
    rw [decodeNew_place]
    cases (decodeNew (env.at nowhere) n ch : Except String SignonResponse) with
    | error e => rfl
    | ok so =>
      by_cases h : rest.all isBlank = true
      · simp only [Except.map, h, if_true]
      · simp only [Except.map, h]; rfl

theorem decodeBody_place (env : Env) (loc : LocalZone) (strict : Bool) (version : Nat) (toks : List Tok) :
    decodeBody (env.at loc) strict version toks =
      (decodeBody (env.at nowhere) strict version toks).map (responseDates (known loc)) := by
  have children : ∀ ns, decodeOfxChildren (env.at loc) version ns =
      (decodeOfxChildren (env.at nowhere) version ns).map (responseDates (known loc)) := by
    intro ns
    match ns with
    | [] => rfl
    | .text _ :: _ => rfl
    | .misc :: _ => rfl
    | .elem sn sc :: rest =>
      unfold decodeOfxChildren
      simp only
      by_cases h : sn = (MsgType.rs .signon).string
      · rw [if_pos h, if_pos h, decodeSignon_place]
        cases decodeSignon (env.at nowhere) sc with
        | error e => rfl
        | ok so =>
          have h2 := decodeSets_place env loc rest (fun _ => [])
          have h2' : decodeSets (env.at loc) (fun _ => []) rest =
              (decodeSets (env.at nowhere) (fun _ => []) rest).map (fun g s => (g s).map (messageDates (known loc))) := h2
          simp only [Except.map] at h2' ⊢
          rw [h2']
          cases decodeSets (env.at nowhere) (fun _ => []) rest with
          | error e => rfl
          | ok g => rfl
      · rw [if_neg h, if_neg h]; rfl
  have ofx : ∀ n, decodeOfx (env.at loc) version n = (decodeOfx (env.at nowhere) version n).map (responseDates (known loc)) := by
    intro n
    cases n with
    | text s => rfl
    | misc => rfl
    | elem n cs =>
      unfold decodeOfx
      simp only
      by_cases h : n = "OFX".toList
      · rw [if_pos h, if_pos h]; exact children _
      · rw [if_neg h, if_neg h]; rfl
  unfold decodeBody
  generalize skipBlank toks = ts
  match ts with
  | [] => rfl
  | .start n :: rest =>
    simp only
    cases build strict (n, []) [] rest with
    | error e => rfl
    | ok p => exact ofx p.1
  | .stop _ :: _ => rfl
  | .text _ :: _ => rfl
  | .proc _ _ :: _ => rfl
  | .misc :: _ => rfl

theorem decodeReader_place (env : Env) (loc : LocalZone) (nt : NameTable) (b : Bufio) :
    decodeReader (env.at loc) nt b = (decodeReader (env.at nowhere) nt b).map (responseDates (known loc)) := by
  unfold decodeReader
  simp only
  by_cases h : guessVersion (latin1 (b.peek 1024).1) = true
  · rw [if_pos h, if_pos h]
    generalize readXMLHeaders (lex true nt _) = x
    cases x with
    | error e => rfl
    | ok p => exact decodeBody_place env loc true p.1 p.2
  · rw [if_neg h, if_neg h]
    generalize (b.peek 1024).2.readSlice 60 = x
    cases x with
    | error e => rfl
    | ok p =>
      obtain ⟨s, b⟩ := p
      simp only
      cases b.unreadByte with
      | error e => rfl
      | ok b =>
        simp only
        cases checkSGMLHeader (latin1 s) with
        | error e => rfl
        | ok v => exact decodeBody_place env loc false v _

/-! ### Validity -/

mutual
theorem dates_like {f : GoTime → GoTime} (hf : ∀ t, LeafSame .date t (f t)) : (t : Ty) → ∀ v, TyLike t v (onDates f t v)
  | .leaf l, v => by cases l <;> first | exact hf v | exact rfl
  | .struct _ fs, v => ⟨trivial, fields_dates_like hf fs v.2⟩
  | .closed _ _ fs, v => fields_dates_like hf fs v
  | .ptr t, v => by
    show SameOpt (TyLike t) (show Option t.Den from v) (Option.map (onDates f t) (show Option t.Den from v))
    generalize (show Option t.Den from v) = a
    cases a with
    | none => trivial
    | some x => exact dates_like hf t x
  | .slice t, v => by
    show List.Forall₂ (TyLike t) (show List t.Den from v) (List.map (onDates f t) (show List t.Den from v))
    generalize (show List t.Den from v) = a
    induction a with
    | nil => exact .nil
    | cons x xs ih => exact .cons (dates_like hf t x) ih
  | .msgSets _, _ => trivial
theorem fields_dates_like {f : GoTime → GoTime} (hf : ∀ t, LeafSame .date t (f t)) : (fs : Fields) → ∀ v,
    FieldsLike fs v (onFieldDates f fs v)
  | .nil, _ => trivial
  | .field _ _ _ t rest, v => ⟨dates_like hf t v.1, fields_dates_like hf rest v.2⟩
  | .alts _ rest, v => ⟨trivial, fields_dates_like hf rest v.2⟩
end

theorem value_dates_like {α : Type} [OfxType α] {f : GoTime → GoTime} (hf : ∀ t, LeafSame .date t (f t)) (x : α) :
    TyLike (OfxType.ty α) (OfxType.toDen x) (OfxType.toDen (valueDates f x)) := by
  unfold valueDates
  rw [OfxType.toDen_ofDen]
  exact dates_like hf _ _

theorem known_same (loc : LocalZone) (t : GoTime) : LeafSame .date t (known loc t) := by
  unfold known
  by_cases h : t.zone = [] ∧ (loc (t.ns / nsPerSec)).2 = t.off
  · rw [if_pos h]; exact ⟨rfl, rfl, fun hz => absurd h.1 hz⟩
  · rw [if_neg h]; exact ⟨rfl, rfl, fun _ => rfl⟩

theorem messageDates_valid {f : GoTime → GoTime} (hf : ∀ t, LeafSame .date t (f t)) (v : Nat) (m : Message) :
    ((messageDates f m).valid v).1 = (m.valid v).1 := by
  have uid : ∀ {a b : Str}, b = a → UID.valid b = UID.valid a := by rintro _ _ rfl; rfl
  cases m with
  | statementRequest m =>
    obtain ⟨-, h1, -, -, h2, -, -, -, h3, h4, -⟩ := value_dates_like hf m
    have h1 : (valueDates f m).TrnUID = m.TrnUID := h1
    have h2 : (valueDates f m).BankAcctFrom.valid = m.BankAcctFrom.valid := bankAcct_same h2
    have h3 : (valueDates f m).IncludePending = m.IncludePending := h3
    have h4 : (valueDates f m).IncTranImg = m.IncTranImg := h4
    show (valueDates f m).valid v = m.valid v
    unfold StatementRequest.valid
    rw [h1, h2, h3, h4]
  | statementResponse m => exact statement_same (value_dates_like hf m)
  | ccStatementRequest m => exact uid (value_dates_like hf m).2.1
  | ccStatementResponse m => exact uid (value_dates_like hf m).2.1
  | invStatementRequest m => exact uid (value_dates_like hf m).2.1
  | invStatementResponse m => exact uid (value_dates_like hf m).2.1
  | profileRequest m =>
    have h : (valueDates f m).TrnUID = m.TrnUID := (value_dates_like hf m).2.1
    show ((valueDates f m).valid v).1 = (m.valid v).1
    unfold ProfileRequest.valid
    rw [h]
    cases UID.valid m.TrnUID <;> rfl
  | profileResponse m => exact uid (value_dates_like hf m).2.1
  | secListRequest m => exact uid (value_dates_like hf m).2.1
  | secListResponse m => exact uid (value_dates_like hf m).2.1
  | securityList m => rfl
  | acctInfoRequest m => exact uid (value_dates_like hf m).2.1
  | acctInfoResponse m => exact uid (value_dates_like hf m).2.1

theorem responseDates_valid {f : GoTime → GoTime} (hf : ∀ t, LeafSame .date t (f t)) (r : Response Message) :
    (responseDates f r).valid = r.valid := by
  unfold Response.valid
  have h1 : (responseDates f r).signon.valid (responseDates f r).version = r.signon.valid r.version :=
    signonRs_like (value_dates_like hf r.signon)
  rw [h1]
  have h2 : ∀ (ms : List Message) es, addMessageErrs r.version es (ms.map (messageDates f)) = addMessageErrs r.version es ms := by
    intro ms
    induction ms with
    | nil => intro es; rfl
    | cons m ms ih =>
      intro es
      show addMessageErrs r.version (addErr es (MessageImpl.valid r.version (messageDates f m)).1) _ =
        addMessageErrs r.version (addErr es (MessageImpl.valid r.version m).1) ms
      have h : (MessageImpl.valid r.version (messageDates f m)).1 = (MessageImpl.valid r.version m).1 := by
        show ((messageDates f m).valid r.version).1.map Err.plain = (m.valid r.version).1.map Err.plain
        rw [messageDates_valid hf]
      rw [h]
      exact ih _
  have h3 : ∀ (ss : List MsgSet) es, addSetErrs r.version (responseDates f r).sets es ss = addSetErrs r.version r.sets es ss := by
    intro ss
    induction ss with
    | nil => intro es; rfl
    | cons s ss ih =>
      intro es
      unfold addSetErrs
      rw [show (responseDates f r).sets s = (r.sets s).map (messageDates f) from rfl, h2]
      exact ih _
  exact congrArg errOrNil (h3 _ _)

theorem parseReader_place (env : Env) (loc : LocalZone) (nt : NameTable) (b : Bufio) :
    parseReader (env.at loc) nt b =
      ((parseReader (env.at nowhere) nt b).1.map (responseDates (known loc)), (parseReader (env.at nowhere) nt b).2) := by
  unfold parseReader
  rw [decodeReader_place]
  cases decodeReader (env.at nowhere) nt b with
  | error e => rfl
  | ok r => exact Prod.ext rfl (responseDates_valid (known_same loc) r)

theorem decodeResponse_place (env : Env) (loc : LocalZone) (nt : NameTable) (bs : List UInt8) :
    decodeResponse (env.at loc) nt bs = (decodeResponse (env.at nowhere) nt bs).map (responseDates (known loc)) := by
  unfold decodeResponse
  by_cases h : guessVersion (latin1 (bs.take 1024)) = true
  · rw [if_pos h, if_pos h]
    generalize readXMLHeaders (lex true nt _) = x
    cases x with
    | error e => rfl
    | ok p => exact decodeBody_place env loc true p.1 p.2
  · rw [if_neg h, if_neg h]
    generalize readSlice bs = x
    cases x with
    | error e => rfl
    | ok p =>
      obtain ⟨s, rest⟩ := p
      simp only
      cases checkSGMLHeader s with
      | error e => rfl
      | ok v => exact decodeBody_place env loc false v _

theorem parseResponse_place (env : Env) (loc : LocalZone) (nt : NameTable) (bs : List UInt8) :
    parseResponse (env.at loc) nt bs =
      ((parseResponse (env.at nowhere) nt bs).1.map (responseDates (known loc)), (parseResponse (env.at nowhere) nt bs).2) := by
  unfold parseResponse
  rw [decodeResponse_place]
  cases decodeResponse (env.at nowhere) nt bs with
  | error e => rfl
  | ok r => exact Prod.ext rfl (responseDates_valid (known_same loc) r)

/-! ### Composition -/

mutual
theorem onDates_comp (f g : GoTime → GoTime) : (t : Ty) → ∀ v, onDates f t (onDates g t v) = onDates (fun d => f (g d)) t v
  | .leaf l, v => by cases l <;> rfl
  | .struct _ fs, v => Prod.ext rfl (onFieldDates_comp f g fs v.2)
  | .closed _ _ fs, v => onFieldDates_comp f g fs v
  | .ptr t, v => by
    show Option.map (onDates f t) (Option.map (onDates g t) (show Option t.Den from v)) = Option.map _ (show Option t.Den from v)
    rw [Option.map_map]
    exact congrArg (fun k => Option.map k (show Option t.Den from v)) (funext fun x => onDates_comp f g t x)
  | .slice t, v => by
    show List.map (onDates f t) (List.map (onDates g t) (show List t.Den from v)) = List.map _ (show List t.Den from v)
    rw [List.map_map]
    exact congrArg (fun k => List.map k (show List t.Den from v)) (funext fun x => onDates_comp f g t x)
  | .msgSets fs, v => by
    show List.map _ (List.map _ (show List (Str × Str × fs.Den) from v)) = List.map _ (show List (Str × Str × fs.Den) from v)
    rw [List.map_map]
    refine congrArg (fun k => List.map k (show List (Str × Str × fs.Den) from v)) (funext fun x => ?_)
    exact Prod.ext rfl (Prod.ext rfl (onFieldDates_comp f g fs x.2.2))
theorem onFieldDates_comp (f g : GoTime → GoTime) : (fs : Fields) → ∀ v,
    onFieldDates f fs (onFieldDates g fs v) = onFieldDates (fun d => f (g d)) fs v
  | .nil, _ => rfl
  | .field _ _ _ t rest, v => Prod.ext (onDates_comp f g t v.1) (onFieldDates_comp f g rest v.2)
  | .alts as rest, v => by
    refine Prod.ext ?_ (onFieldDates_comp f g rest v.2)
    show List.map (onAltDates f as) (List.map (onAltDates g as) (show List as.Den from v.1)) = List.map _ (show List as.Den from v.1)
    rw [List.map_map]
    exact congrArg (fun k => List.map k (show List as.Den from v.1)) (funext fun x => onAltDates_comp f g as x)
theorem onAltDates_comp (f g : GoTime → GoTime) : (as : Alts) → ∀ v,
    onAltDates f as (onAltDates g as v) = onAltDates (fun d => f (g d)) as v
  | .nil, _ => rfl
  | .alt _ _ t rest, v => by
    show Sum.map _ _ (Sum.map _ _ (show t.Den ⊕ rest.Den from v)) = Sum.map _ _ (show t.Den ⊕ rest.Den from v)
    generalize (show t.Den ⊕ rest.Den from v) = x
    cases x with
    | inl x => exact congrArg Sum.inl (onDates_comp f g t x)
    | inr x => exact congrArg Sum.inr (onAltDates_comp f g rest x)
end

theorem valueDates_comp {α : Type} [OfxType α] (f g : GoTime → GoTime) (x : α) :
    valueDates f (valueDates g x) = valueDates (fun d => f (g d)) x := by
  unfold valueDates
  rw [OfxType.toDen_ofDen, onDates_comp]

theorem messageDates_comp (f g : GoTime → GoTime) (m : Message) :
    messageDates f (messageDates g m) = messageDates (fun d => f (g d)) m := by
  cases m <;> simp only [messageDates, valueDates_comp]

theorem responseDates_comp (f g : GoTime → GoTime) (r : Response Message) :
    responseDates f (responseDates g r) = responseDates (fun d => f (g d)) r := by
  unfold responseDates
  simp only [valueDates_comp, List.map_map]
  congr 1
  funext s
  exact congrArg (fun k => List.map k (r.sets s)) (funext fun m => messageDates_comp f g m)

/-! ### Dates that are the same everywhere -/

mutual
theorem onDates_congr {f g : GoTime → GoTime} {P : GoTime → Prop} (h : ∀ d, P (f d) → g d = f d) : (t : Ty) → ∀ v,
    TyDates P t (onDates f t v) → onDates g t v = onDates f t v
  | .leaf l, v, hp => by
    cases l <;> first | exact h _ hp | rfl
  | .struct _ fs, v, hp => Prod.ext rfl (onFieldDates_congr h fs v.2 hp)
  | .closed _ _ fs, v, hp => onFieldDates_congr h fs v hp
  | .ptr t, v, hp => by
    show Option.map (onDates g t) (show Option t.Den from v) = Option.map (onDates f t) (show Option t.Den from v)
    have hp : ∀ x ∈ Option.map (onDates f t) (show Option t.Den from v), TyDates P t x := hp
    generalize (show Option t.Den from v) = a at hp ⊢
    cases a with
    | none => rfl
    | some x => exact congrArg some (onDates_congr h t x (hp _ rfl))
  | .slice t, v, hp => by
    show List.map (onDates g t) (show List t.Den from v) = List.map (onDates f t) (show List t.Den from v)
    have hp : ∀ x ∈ List.map (onDates f t) (show List t.Den from v), TyDates P t x := hp
    generalize (show List t.Den from v) = a at hp ⊢
    exact List.map_congr_left (fun x hx => onDates_congr h t x (hp _ (List.mem_map_of_mem hx)))
  | .msgSets fs, v, hp => by
    have hp : ∀ x ∈ List.map (fun (x : Str × Str × fs.Den) => (x.1, x.2.1, onFieldDates f fs x.2.2)) (show List (Str × Str × fs.Den) from v),
      FieldDates P fs x.2.2 := hp
    show List.map _ (show List (Str × Str × fs.Den) from v) = List.map _ (show List (Str × Str × fs.Den) from v)
    generalize (show List (Str × Str × fs.Den) from v) = a at hp ⊢
    exact List.map_congr_left (fun x hx => Prod.ext rfl (Prod.ext rfl
      (onFieldDates_congr h fs x.2.2 (hp _ (List.mem_map_of_mem hx)))))
theorem onFieldDates_congr {f g : GoTime → GoTime} {P : GoTime → Prop} (h : ∀ d, P (f d) → g d = f d) : (fs : Fields) → ∀ v,
    FieldDates P fs (onFieldDates f fs v) → onFieldDates g fs v = onFieldDates f fs v
  | .nil, _, _ => rfl
  | .field _ _ _ t rest, v, hp => Prod.ext (onDates_congr h t v.1 hp.1) (onFieldDates_congr h rest v.2 hp.2)
  | .alts as rest, v, hp => by
    refine Prod.ext ?_ (onFieldDates_congr h rest v.2 hp.2)
    have hp : ∀ x ∈ List.map (onAltDates f as) (show List as.Den from v.1), AltDates P as x := hp.1
    show List.map (onAltDates g as) (show List as.Den from v.1) = List.map (onAltDates f as) (show List as.Den from v.1)
    generalize (show List as.Den from v.1) = a at hp ⊢
    exact List.map_congr_left (fun x hx => onAltDates_congr h as x (hp _ (List.mem_map_of_mem hx)))
theorem onAltDates_congr {f g : GoTime → GoTime} {P : GoTime → Prop} (h : ∀ d, P (f d) → g d = f d) : (as : Alts) → ∀ v,
    AltDates P as (onAltDates f as v) → onAltDates g as v = onAltDates f as v
  | .nil, _, _ => rfl
  | .alt n e t rest, v, hp => by
    have hp : AltDates P (.alt n e t rest) (Sum.map (onDates f t) (onAltDates f rest) (show t.Den ⊕ rest.Den from v)) := hp
    show Sum.map _ _ (show t.Den ⊕ rest.Den from v) = Sum.map _ _ (show t.Den ⊕ rest.Den from v)
    generalize (show t.Den ⊕ rest.Den from v) = x at hp ⊢
    cases x with
    | inl x => exact congrArg Sum.inl (onDates_congr h t x hp)
    | inr x => exact congrArg Sum.inr (onAltDates_congr h rest x hp)
end

theorem valueDates_congr {α : Type} [OfxType α] {f g : GoTime → GoTime} {P : GoTime → Prop} (h : ∀ d, P (f d) → g d = f d) (x : α)
    (hp : ValueDates P (valueDates f x)) : valueDates g x = valueDates f x := by
  unfold ValueDates valueDates at hp
  rw [OfxType.toDen_ofDen] at hp
  unfold valueDates
  rw [onDates_congr h _ _ hp]

theorem responseDates_congr {f g : GoTime → GoTime} {P : GoTime → Prop} (h : ∀ d, P (f d) → g d = f d) (r : Response Message)
    (hp : ResponseDates P (responseDates f r)) : responseDates g r = responseDates f r := by
  unfold responseDates
  have h1 := valueDates_congr h r.signon hp.1
  rw [h1]
  congr 1
  funext s
  refine List.map_congr_left (fun m hm => ?_)
  have hq := hp.2 s (messageDates f m) (List.mem_map_of_mem hm)
  cases m <;> exact congrArg _ (valueDates_congr h _ hq)

/-! ### Checking all dates of a value -/

mutual
def datesB (p : GoTime → Bool) : (t : Ty) → t.Den → Bool
  | .leaf .date, v => p v
  | .leaf _, _ => true
  | .struct _ fs, v => fieldDatesB p fs v.2
  | .closed _ _ fs, v => fieldDatesB p fs v
  | .ptr t, v => Option.all (fun x => datesB p t x) (show Option t.Den from v)
  | .slice t, v => List.all (show List t.Den from v) (fun x => datesB p t x)
  | .msgSets fs, v => List.all (show List (Str × Str × fs.Den) from v) (fun x => fieldDatesB p fs x.2.2)
def fieldDatesB (p : GoTime → Bool) : (fs : Fields) → fs.Den → Bool
  | .nil, _ => true
  | .field _ _ _ t rest, v => datesB p t v.1 && fieldDatesB p rest v.2
  | .alts as rest, v => List.all (show List as.Den from v.1) (fun x => altDatesB p as x) && fieldDatesB p rest v.2
def altDatesB (p : GoTime → Bool) : (as : Alts) → as.Den → Bool
  | .nil, _ => true
  | .alt _ _ t rest, v =>
    match (show t.Den ⊕ rest.Den from v) with
    | .inl x => datesB p t x
    | .inr y => altDatesB p rest y
end

mutual
theorem datesB_sound {p : GoTime → Bool} {P : GoTime → Prop} (hp : ∀ d, p d = true → P d) : (t : Ty) → ∀ v,
    datesB p t v = true → TyDates P t v
  | .leaf l, v, h => by cases l <;> first | exact hp _ h | trivial
  | .struct _ fs, v, h => fieldDatesB_sound hp fs v.2 h
  | .closed _ _ fs, v, h => fieldDatesB_sound hp fs v h
  | .ptr t, v, h => by
    intro x hx
    have h : Option.all (fun x => datesB p t x) (show Option t.Den from v) = true := h
    rw [hx] at h
    exact datesB_sound hp t x h
  | .slice t, v, h => fun x hx => datesB_sound hp t x (List.all_eq_true.mp h x hx)
  | .msgSets fs, v, h => fun x hx => fieldDatesB_sound hp fs x.2.2 (List.all_eq_true.mp h x hx)
theorem fieldDatesB_sound {p : GoTime → Bool} {P : GoTime → Prop} (hp : ∀ d, p d = true → P d) : (fs : Fields) → ∀ v,
    fieldDatesB p fs v = true → FieldDates P fs v
  | .nil, _, _ => trivial
  | .field _ _ _ t rest, v, h => by
    have h := (Bool.and_eq_true _ _).mp h
    exact ⟨datesB_sound hp t v.1 h.1, fieldDatesB_sound hp rest v.2 h.2⟩
  | .alts as rest, v, h => by
    have h := (Bool.and_eq_true _ _).mp h
    exact ⟨fun x hx => altDatesB_sound hp as x (List.all_eq_true.mp h.1 x hx), fieldDatesB_sound hp rest v.2 h.2⟩
theorem altDatesB_sound {p : GoTime → Bool} {P : GoTime → Prop} (hp : ∀ d, p d = true → P d) : (as : Alts) → ∀ v,
    altDatesB p as v = true → AltDates P as v
  | .nil, _, _ => trivial
  | .alt _ _ t rest, v, h => by
    unfold altDatesB at h
    unfold AltDates
    generalize (show t.Den ⊕ rest.Den from v) = x at h ⊢
    cases x with
    | inl x => exact datesB_sound hp t x h
    | inr x => exact altDatesB_sound hp rest x h
end

end Ofx
