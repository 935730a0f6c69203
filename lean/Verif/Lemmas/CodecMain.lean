import Verif.Lemmas.CodecRT
/-
The round trip theorem for all well-formed schemas.
-/
namespace Ofx

theorem isEmpty_rel (env : Env) : (fs : Fields) → ∀ v v' : fs.Den, fs.Rel env v v' →
    fs.isEmpty v = true → v' = fs.zero
  | .nil, _, _, _, _ => rfl
  | .field _ _ _ _ _, _, _, _, h => by simp [Fields.isEmpty] at h
  | .alts as rest, v, v', hr, h => by
    simp only [Fields.isEmpty, Bool.and_eq_true] at h
    simp only [Fields.Rel] at hr
    obtain ⟨a, b⟩ := v
    obtain ⟨a', b'⟩ := v'
    have h1 : a = [] := List.isEmpty_iff.mp h.1
    have h2 : b' = rest.zero := isEmpty_rel env rest _ _ hr.2 h.2
    have h3 : a' = [] := by
      have := hr.1
      simp only [h1] at this
      cases a' with
      | nil => rfl
      | cons x xs => exact this.elim
    rw [h2, h3]
    rfl

theorem encName_eq (xn : XName) (name : Str) (x x' : xn.Den) (hc : xn.check name = true)
    (h : xn.Rel name x x') : xn.encName name x = name ∧ x' = xn.set name := by
  cases xn with
  | none => exact ⟨rfl, rfl⟩
  | tag t => simp only [XName.check, beq_iff_eq] at hc; exact ⟨hc, rfl⟩
  | free =>
    obtain ⟨h1, h2⟩ := h
    refine ⟨?_, h2⟩
    simp only [XName.encName]
    rcases h1 with h1 | h1
    · rw [if_pos h1]
    · split
      · rfl
      · exact h1

theorem all_has {p : Str → Bool} : (as : Alts) → as.all p = true → ∀ {n : Str}, as.has n = true →
    p n = true
  | .nil, _, _, hn => by simp [Alts.has] at hn
  | .alt dec enc t rest, h, n, hn => by
    simp only [Alts.all, Bool.and_eq_true] at h
    simp only [Alts.has, Bool.or_eq_true, beq_iff_eq] at hn
    rcases hn with rfl | hn
    · exact h.1
    · exact all_has rest h.2 hn

theorem foldE_one {α β : Type} (f : α → β → Except String α) (z : α) (c : β) :
    foldE f z [c] = f z c := by
  simp only [foldE]
  cases f z c <;> rfl

theorem foldE_slice {α β : Type} (dec : α → β → Except String α) (z : α) (css : List β)
    (vs : List α) (acc : List α)
    (h : ListRel (fun c x => dec z c = .ok x) css vs) :
    foldE (fun (l : List α) c => match dec z c with
      | .ok x => .ok (l ++ [x])
      | .error e => .error e) acc css = .ok (acc ++ vs) := by
  induction css generalizing vs acc with
  | nil => cases vs with
    | nil => simp [foldE]
    | cons a b => exact h.elim
  | cons c css ih => cases vs with
    | nil => exact h.elim
    | cons x vs =>
      obtain ⟨h1, h2⟩ := h
      simp only [foldE, h1]
      rw [ih vs _ h2]; simp

theorem mapE_single {α : Type} {γ : Type} (f : α → Except String (List Node)) (mk : γ → Node)
    (vs : List α) (cs : List γ) (h : ListRel (fun v c => f v = .ok [mk c]) vs cs) :
    mapE f vs = .ok (cs.map (fun c => [mk c])) := by
  induction vs generalizing cs with
  | nil => cases cs with
    | nil => simp [mapE]
    | cons a b => exact h.elim
  | cons v vs ih => cases cs with
    | nil => exact h.elim
    | cons c cs =>
      obtain ⟨h1, h2⟩ := h
      simp [mapE, h1, ih cs h2]

theorem flatten_single {γ : Type} (mk : γ → Node) (cs : List γ) :
    (cs.map (fun c => [mk c])).flatten = cs.map mk := by
  induction cs with
  | nil => rfl
  | cons c cs ih => simp [ih]

theorem mapE_ok {α β : Type} (f : α → Except String β) (xs : List α) (ys : List β)
    (h : ListRel (fun x y => f x = .ok y) xs ys) : mapE f xs = .ok ys := by
  induction xs generalizing ys with
  | nil => cases ys with
    | nil => rfl
    | cons a b => exact h.elim
  | cons x xs ih => cases ys with
    | nil => exact h.elim
    | cons y ys =>
      obtain ⟨h1, h2⟩ := h
      simp [mapE, h1, ih ys h2]

/-- Choice along two related lists. -/
theorem listRel_choose {α β γ : Type} {r : α → β → Prop} {p : α → β → γ → Prop}
    (hp : ∀ a b, r a b → ∃ c, p a b c) (as : List α) (bs : List β) (h : ListRel r as bs) :
    ∃ cs : List γ, ListRel (fun a c => ∃ b, p a b c) as cs ∧ ListRel (fun c b => ∃ a, p a b c) cs bs := by
  induction as generalizing bs with
  | nil => cases bs with
    | nil => exact ⟨[], trivial, trivial⟩
    | cons a b => exact h.elim
  | cons a as ih => cases bs with
    | nil => exact h.elim
    | cons b bs =>
      obtain ⟨c, hc⟩ := hp a b h.1
      obtain ⟨cs, h1, h2⟩ := ih bs h.2
      exact ⟨c :: cs, ⟨⟨b, hc⟩, h1⟩, ⟨⟨a, hc⟩, h2⟩⟩

theorem ListRel.imp {α β : Type} {r s : α → β → Prop} (hi : ∀ a b, r a b → s a b) :
    ∀ (as : List α) (bs : List β), ListRel r as bs → ListRel s as bs
  | [], [], _ => trivial
  | _ :: _, _ :: _, h => ⟨hi _ _ h.1, ListRel.imp hi _ _ h.2⟩
  | [], _ :: _, h => h.elim
  | _ :: _, [], h => h.elim

theorem trimV1_isSome {s : Str} (h : (trimV1 s).isSome = true) : ∃ short, trimV1 s = some short :=
  Option.isSome_iff_exists.mp h

/-- A parent element that is skipped contributes nothing. -/
theorem events_name (fs : Fields) (n : Str) (cs : List Node) (h1 : fs.hits [] n = false)
    (h2 : fs.under [n] = false) : fs.events [] (.elem n cs) = [.junk] := by
  simp [Fields.events, h1, h2]

mutual

theorem Ty.rt (env : Env) : (t : Ty) → ∀ (name : Str) (om : Bool) (v v' : t.Den),
    t.wf name om = true → t.Rel env name v v' →
    ∃ css : List (List Node), t.enc name om v = .ok (css.map (fun cs => Node.elem name cs)) ∧
      foldE (fun x cs => t.dec env x name cs) t.zero css = .ok v' ∧
      (t.single = true → (om = false ∨ t.isStruct = true) → ∃ cs, css = [cs]) ∧
      (t.opens v = false → css = [])
  | .leaf l, name, om, v, v', _, hr => by
    obtain ⟨hr1, hr2⟩ := (show LeafRT env l v v' from hr)
    by_cases he : (om && l.isEmpty v) = true
    · refine ⟨[], by simp [Ty.enc, he], ?_, ?_, fun _ => rfl⟩
      · simp only [Bool.and_eq_true] at he
        simp [foldE, Ty.zero, hr1 he.2]
      · rintro - (rfl | h)
        · simp at he
        · simp [Ty.isStruct] at h
    · simp only [Bool.not_eq_true] at he
      cases hp : l.print v with
      | some s =>
        rw [hp] at hr2
        refine ⟨[if s = [] then [] else [.text s]], ?_, ?_, fun _ _ => ⟨_, rfl⟩, ?_⟩
        · simp [Ty.enc, he, hp, textNode]
        · simp only [foldE, Ty.dec, leafText_single]
          simp only at hr2
          rw [hr2]
        · simp [Ty.opens]
      | none =>
        rw [hp] at hr2
        refine ⟨[], by simp [Ty.enc, he, hp], ?_, ?_, fun _ => rfl⟩
        · simp only at hr2
          simp [foldE, Ty.zero, hr2]
        · intro hs
          exfalso
          cases l <;> first | (simp [Ty.single] at hs; done) | (simp [Leaf.print] at hp; done)
  | .struct xn fs, name, om, v, v', hw, hr => by
    obtain ⟨x, v⟩ := v
    obtain ⟨x', v'⟩ := v'
    obtain ⟨hc, hx, hf⟩ := (show xn.check name = true ∧ xn.Rel name x x' ∧ fs.Rel env v v' from hr)
    obtain ⟨items, h1, h2, -, h4⟩ := Fields.rt env fs fs v v' (by simpa [Ty.wf] using hw) hf
    obtain ⟨e1, e2⟩ := encName_eq xn name x x' hc hx
    refine ⟨[emit fs.depth items], ?_, ?_, fun _ _ => ⟨_, rfl⟩, ?_⟩
    · simp [Ty.enc, h1, e1]
    · simp only [foldE, Ty.dec, hc, if_true]
      rw [eventsL_emit fs fs.depth [] items h2]
      have h4' := h4 false
      simp only [Ty.zero]
      rw [h4']
      simp only [e2]
    · simp [Ty.opens]
  | .closed lit goSlice fs, name, om, v, v', hw, hr => by
    simp only [Ty.wf, Bool.and_eq_true, beq_iff_eq] at hw
    obtain ⟨rfl, hw⟩ := hw
    have hf : fs.Rel env v v' := hr
    by_cases he : (om && goSlice && fs.isEmpty v) = true
    · refine ⟨[], by simp [Ty.enc, he], ?_, ?_, fun _ => rfl⟩
      · simp only [Bool.and_eq_true] at he
        have := isEmpty_rel env fs v v' hf he.2
        simp [foldE, Ty.zero, this]
      · rintro - (rfl | h)
        · simp at he
        · simp [Ty.isStruct] at h
    · simp only [Bool.not_eq_true] at he
      obtain ⟨items, h1, h2, -, h4⟩ := Fields.rt env fs fs v v' hw hf
      refine ⟨[emit fs.depth items], ?_, ?_, fun _ _ => ⟨_, rfl⟩, ?_⟩
      · simp only [Ty.enc, he, h1]
        simp
      · rw [foldE_one]
        simp only [Ty.dec]
        rw [eventsL_emit fs fs.depth [] items h2]
        exact h4 true
      · simp [Ty.opens]
  | .ptr t, name, om, v, v', hw, hr => by
    simp only [Ty.wf, Bool.and_eq_true] at hw
    have hr' : OptRel (fun a b => t.Rel env name a b) (show Option t.Den from v) (show Option t.Den from v') := hr
    change Option t.Den at v v'
    rcases v with _ | v <;> rcases v' with _ | v'
    · exact ⟨[], by simp [Ty.enc], by simp [foldE, Ty.zero], by simp [Ty.single], fun _ => rfl⟩
    · exact hr'.elim
    · exact hr'.elim
    · obtain ⟨css, h1, h2, h3, -⟩ := Ty.rt env t name false v v' hw.2 hr'
      obtain ⟨cs, rfl⟩ := h3 hw.1 (Or.inl rfl)
      refine ⟨[cs], ?_, ?_, by simp [Ty.single], ?_⟩
      · simp [Ty.enc, h1]
      · simp only [foldE] at h2
        have h2' : t.dec env t.zero name cs = .ok v' := by
          cases h : t.dec env t.zero name cs with
          | ok a => rw [h] at h2; simpa using h2
          | error e => rw [h] at h2; simp at h2
        simp only [foldE, Ty.dec, Ty.zero, Option.getD_none, h2']
      · simp [Ty.opens]
  | .slice t, name, om, v, v', hw, hr => by
    simp only [Ty.wf, Bool.and_eq_true, Bool.or_eq_true, Bool.not_eq_true'] at hw
    change List t.Den at v v'
    have hr' : ListRel (fun a b => t.Rel env name a b) v v' := hr
    obtain ⟨css, c1, c2⟩ := listRel_choose
      (p := fun a b cs => t.enc name om a = .ok [Node.elem name cs] ∧ t.dec env t.zero name cs = .ok b)
      (fun a b hab => by
        obtain ⟨css, h1, h2, h3, -⟩ := Ty.rt env t name om a b hw.2 hab
        obtain ⟨cs, rfl⟩ := h3 hw.1.1 hw.1.2
        refine ⟨cs, by simpa using h1, ?_⟩
        simp only [foldE] at h2
        cases h : t.dec env t.zero name cs with
        | ok a => rw [h] at h2; simpa using h2
        | error e => rw [h] at h2; simp at h2) v v' hr'
    have e1 : mapE (fun x => t.enc name om x) v = .ok (css.map (fun c => [Node.elem name c])) :=
      mapE_single (fun x => t.enc name om x) (fun c => Node.elem name c) v css
        (ListRel.imp (fun a c ⟨b, h⟩ => h.1) _ _ c1)
    have e2 := foldE_slice (fun z c => t.dec env z name c) t.zero css v' []
      (ListRel.imp (fun a c ⟨b, h⟩ => h.2) _ _ c2)
    refine ⟨css, ?_, ?_, by simp [Ty.single], by simp [Ty.opens]⟩
    · simp only [Ty.enc]
      rw [e1]
      simp only [flatten_single]
    · simp only [List.nil_append] at e2
      simp only [Ty.dec, Ty.zero]
      refine Eq.trans (congrArg (fun f => foldE f [] css) (funext fun l => funext fun c => ?_)) e2
      cases Ty.dec env t t.zero name c <;> rfl
  | .msgSets fs, name, om, v, v', hw, hr => by
    simp only [Ty.wf, Bool.and_eq_true, beq_iff_eq, Bool.not_eq_true'] at hw
    obtain ⟨⟨⟨rfl, hwf⟩, hn1⟩, hn2⟩ := hw
    change List (Str × Str × fs.Den) at v v'
    have hr' : ListRel (fun (a b : Str × Str × fs.Den) =>
      (trimV1 a.2.1).isSome = true ∧ b.1 = a.2.1 ∧ b.2.1 = a.2.1 ∧ fs.Rel env a.2.2 b.2.2) v v' := hr
    by_cases he : (om && List.isEmpty v) = true
    · refine ⟨[], ?_, ?_, ?_, fun _ => rfl⟩
      · simp only [Ty.enc, he, if_true, List.map_nil]
      rotate_left
      · rintro - (rfl | h)
        · simp at he
        · cases h
      · simp only [Bool.and_eq_true] at he
        have : v = [] := List.isEmpty_iff.mp he.2
        subst this
        cases v' with
        | nil => simp [foldE, Ty.zero]
        | cons a b => exact hr'.elim
    · simp only [Bool.not_eq_true] at he
      obtain ⟨ns, c1, c2⟩ := listRel_choose
        (p := fun (a b : Str × Str × fs.Den) nd =>
          encMsgSet (fun y => fs.enc y) fs.depth a = .ok nd ∧ isBlank nd = false ∧
          decMsgSet (fun x => runEvents false (fun v p n c => fs.dec env v p n c) fs.zero (fs.eventsL [] x)) nd = .ok b)
        (fun a b hab => by
          obtain ⟨x, nm, y⟩ := a
          obtain ⟨x', nm', y'⟩ := b
          obtain ⟨h1, h2, h3, h4⟩ := hab
          simp only at h1 h2 h3 h4
          subst h2 h3
          obtain ⟨short, hs⟩ := trimV1_isSome h1
          obtain ⟨items, g1, g2, -, g4⟩ := Fields.rt env fs fs y y' hwf h4
          refine ⟨.elem short [.elem nm' (textNode "Name".toList nm' :: emit fs.depth items)],
            by simp [encMsgSet, hs, g1], by simp [isBlank], ?_⟩
          have hev : fs.eventsL [] (textNode "Name".toList nm' :: emit fs.depth items) =
              .junk :: items.flatMap (Item.evs []) := by
            rw [Fields.eventsL, eventsL_emit fs fs.depth [] items g2, textNode, events_name fs _ _ hn1 hn2]
            rfl
          have hoc : onlyChild [Node.elem nm' (textNode "Name".toList nm' :: emit fs.depth items)] =
              some (nm', textNode "Name".toList nm' :: emit fs.depth items) := by
            simp [onlyChild, isBlank]
          simp only [decMsgSet, hoc, hev, runEvents, g4 false]
          simp) v v' hr'
      have e1 := mapE_ok _ _ _ (ListRel.imp (fun a c ⟨b, h⟩ => h.1) _ _ c1)
      have e2 := mapE_ok _ _ _ (ListRel.imp (fun a c ⟨b, h⟩ => h.2.2) _ _ c2)
      have hb : ns.filter (fun c => !isBlank c) = ns := by
        rw [List.filter_eq_self]
        intro nd hnd
        have : ∀ (l : List Node) (bs : List (Str × Str × fs.Den)),
            ListRel (fun nd (_ : Str × Str × fs.Den) => isBlank nd = false) l bs → ∀ nd ∈ l, isBlank nd = false := by
          intro l
          induction l with
          | nil => simp
          | cons a l ih =>
            intro bs h
            cases bs with
            | nil => exact h.elim
            | cons b bs =>
              intro nd hnd
              rcases List.mem_cons.mp hnd with rfl | hnd
              · exact h.1
              · exact ih bs h.2 nd hnd
        rw [this ns v' (ListRel.imp (fun a c ⟨b, h⟩ => h.2.1) _ _ c2) nd hnd]
        rfl
      refine ⟨[ns], ?_, ?_, fun _ _ => ⟨ns, rfl⟩, by simp [Ty.opens]⟩
      · simp only [Ty.enc, he, e1]
        simp
      · simp only [foldE, Ty.dec, hb, e2, Ty.zero, List.nil_append]

theorem Fields.rt (env : Env) : (fs full : Fields) → ∀ (v v' : fs.Den),
    fs.wf full = true → fs.Rel env v v' →
    ∃ items, fs.enc v = .ok items ∧
      (∀ it ∈ items, GoodItem full [] it ∧ it.path.length ≤ fs.depth) ∧
      AllHit fs (items.flatMap (Item.evs [])) ∧
      ∀ strict, runEvents strict (fun v p n c => fs.dec env v p n c) fs.zero
        (items.flatMap (Item.evs [])) = .ok v'
  | .nil, _, v, v', _, _ => by
    refine ⟨[], by simp [Fields.enc], by simp, by simp [AllHit], ?_⟩
    intro strict
    rfl
  | .field path name om t rest, full, v, v', hw, hr => by
    simp only [Fields.wf, Bool.and_eq_true, Bool.not_eq_true'] at hw
    obtain ⟨⟨⟨⟨w1, w2⟩, w3⟩, w4⟩, w5⟩ := hw
    obtain ⟨a, b⟩ := v
    obtain ⟨a', b'⟩ := v'
    obtain ⟨r1, r2⟩ := (show t.Rel env name a a' ∧ rest.Rel env b b' from hr)
    obtain ⟨css, h1, h2, -, h4⟩ := Ty.rt env t name om a a' w4 r1
    obtain ⟨items, g1, g2, g3, g4⟩ := Fields.rt env rest full b b' w5 r2
    refine ⟨⟨path, t.opens a, css.map (fun cs => Node.elem name cs)⟩ :: items, ?_, ?_, ?_, ?_⟩
    · simp [Fields.enc, h1, g1]
    · intro it hit
      rcases List.mem_cons.mp hit with rfl | hit
      · refine ⟨⟨w1, ?_, ?_⟩, by simp only [Fields.depth]; omega⟩
        · intro nd hnd
          simp only [List.mem_map] at hnd
          obtain ⟨cs, -, rfl⟩ := hnd
          exact ⟨name, cs, rfl, by simpa using w2⟩
        · intro ho
          simp [h4 ho]
      · obtain ⟨q1, q2⟩ := g2 it hit
        exact ⟨q1, by simp only [Fields.depth]; omega⟩
    · intro e he
      rw [List.flatMap_cons, List.mem_append, evs_of_map] at he
      rcases he with he | he
      · simp only [hitsOf, List.mem_map] at he
        obtain ⟨cs, -, rfl⟩ := he
        exact ⟨path, name, cs, rfl, by simp [Fields.hits]⟩
      · obtain ⟨p, n, cs, rfl, hh⟩ := g3 e he
        exact ⟨p, n, cs, rfl, by simp [Fields.hits, hh]⟩
    · intro strict
      rw [List.flatMap_cons, evs_of_map, runEvents_append]
      have e1 := run_field_hits env strict path name om t rest t.zero rest.zero css
      rw [h2] at e1
      have e2 := run_field_rest env strict path name om t rest w3 a' rest.zero
        (items.flatMap (Item.evs [])) g3
      rw [g4 strict] at e2
      simp only [Fields.zero] at *
      rw [e1]
      exact e2
  | .alts as rest, full, v, v', hw, hr => by
    simp only [Fields.wf, Bool.and_eq_true] at hw
    obtain ⟨⟨w1, w2⟩, w3⟩ := hw
    obtain ⟨a, b⟩ := v
    obtain ⟨a', b'⟩ := v'
    obtain ⟨r1, r2⟩ := (show ListRel (fun a b => as.Rel env a b) a a' ∧ rest.Rel env b b' from hr)
    obtain ⟨ncs, c1, c2⟩ := listRel_choose
      (p := fun x y (c : Str × List Node) =>
        as.enc x = .ok [Node.elem c.1 c.2] ∧ as.has c.1 = true ∧ as.dec env c.1 c.2 = .ok y)
      (fun x y hxy => by
        obtain ⟨n, cs, h1, h2, h3⟩ := Alts.rt env as x y w2 hxy
        exact ⟨(n, cs), h1, h2, h3⟩) a a' r1
    obtain ⟨items, g1, g2, g3, g4⟩ := Fields.rt env rest full b b' w3 r2
    have e1 : mapE (fun x => as.enc x) a = .ok (ncs.map (fun c => [Node.elem c.1 c.2])) :=
      mapE_single (fun x => as.enc x) (fun c : Str × List Node => Node.elem c.1 c.2) a ncs
        (ListRel.imp (fun a c ⟨b, h⟩ => h.1) _ _ c1)
    have hhas : ∀ c ∈ ncs, as.has c.1 = true := by
      clear e1 c1
      intro c hc
      have : ∀ (l : List (Str × List Node)) (bs : List as.Den),
          ListRel (fun (c : Str × List Node) (_ : as.Den) => as.has c.1 = true) l bs → ∀ c ∈ l, as.has c.1 = true := by
        intro l
        induction l with
        | nil => simp
        | cons x l ih =>
          intro bs h
          cases bs with
          | nil => exact h.elim
          | cons b bs =>
            intro nd hnd
            rcases List.mem_cons.mp hnd with rfl | hnd
            · exact h.1
            · exact ih bs h.2 nd hnd
      exact this ncs a' (ListRel.imp (fun a c ⟨b, h⟩ => h.2.1) _ _ c2) c hc
    have hevs : Item.evs [] ⟨[], true, ncs.map (fun c => Node.elem c.1 c.2)⟩ =
        ncs.map (fun c => Ev.hit [] c.1 c.2) := by
      simp [Item.evs, toEv, Function.comp_def]
    refine ⟨⟨[], true, ncs.map (fun c => Node.elem c.1 c.2)⟩ :: items, ?_, ?_, ?_, ?_⟩
    · simp only [Fields.enc]
      rw [e1, g1]
      simp [flatten_single]
    · intro it hit
      rcases List.mem_cons.mp hit with rfl | hit
      · refine ⟨⟨by simp [pathOk], ?_, by simp⟩, by simp⟩
        intro nd hnd
        simp only [List.mem_map] at hnd
        obtain ⟨c, hc, rfl⟩ := hnd
        have := all_has as w1 (hhas c hc)
        simp only [Bool.and_eq_true] at this
        exact ⟨c.1, c.2, rfl, this.1⟩
      · obtain ⟨q1, q2⟩ := g2 it hit
        exact ⟨q1, by simp only [Fields.depth]; omega⟩
    · intro e he
      rw [List.flatMap_cons, List.mem_append, hevs] at he
      rcases he with he | he
      · simp only [List.mem_map] at he
        obtain ⟨c, hc, rfl⟩ := he
        exact ⟨[], c.1, c.2, rfl, by simp [Fields.hits, hhas c hc]⟩
      · obtain ⟨p, n, cs, rfl, hh⟩ := g3 e he
        exact ⟨p, n, cs, rfl, by simp [Fields.hits, hh]⟩
    · intro strict
      rw [List.flatMap_cons, hevs, runEvents_append]
      have e2 := run_alts_hits env strict as rest rest.zero ncs a'
        (ListRel.imp (fun a c ⟨b, h⟩ => h.2) _ _ c2) []
      simp only [List.nil_append] at e2
      have e3 := run_alts_rest env strict as rest
        (fun n hn => by have := all_has as w1 hn; simp only [Bool.and_eq_true, Bool.not_eq_true'] at this; exact this.2)
        a' rest.zero (items.flatMap (Item.evs [])) g3
      rw [g4 strict] at e3
      simp only [Fields.zero] at *
      rw [e2]
      exact e3

theorem Alts.rt (env : Env) : (as : Alts) → ∀ (v v' : as.Den), as.wf = true → as.Rel env v v' →
    ∃ n cs, as.enc v = .ok [Node.elem n cs] ∧ as.has n = true ∧ as.dec env n cs = .ok v'
  | .nil, v, _, _, _ => (show Empty from v).elim
  | .alt dec enc t rest, v, v', hw, hr => by
    simp only [Alts.wf, Bool.and_eq_true, beq_iff_eq, Bool.not_eq_true'] at hw
    obtain ⟨⟨⟨⟨rfl, w2⟩, w3⟩, w4⟩, w5⟩ := hw
    change t.Den ⊕ rest.Den at v v'
    rcases v with x | y <;> rcases v' with x' | y'
    · have hr' : t.Rel env dec x x' := hr
      obtain ⟨css, h1, h2, h3, -⟩ := Ty.rt env t dec false x x' w4 hr'
      have hsg : t.single = true := by cases t <;> simp_all [Ty.isStruct, Ty.single]
      obtain ⟨cs, rfl⟩ := h3 hsg (Or.inl rfl)
      refine ⟨dec, cs, ?_, by simp [Alts.has], ?_⟩
      · simp [Alts.enc, h1, Node.rename]
      · simp only [foldE] at h2
        have h2' : t.dec env t.zero dec cs = .ok x' := by
          cases h : t.dec env t.zero dec cs with
          | ok a => rw [h] at h2; simpa using h2
          | error e => rw [h] at h2; simp at h2
        simp [Alts.dec, h2']
    · exact (show False from hr).elim
    · exact (show False from hr).elim
    · have hr' : rest.Rel env y y' := hr
      obtain ⟨n, cs, h1, h2, h3⟩ := Alts.rt env rest y y' w5 hr'
      have hne : (n == dec) = false := by
        cases hb : (n == dec)
        · rfl
        · simp only [beq_iff_eq] at hb
          rw [hb, w2] at h2; cases h2
      refine ⟨n, cs, ?_, by simp [Alts.has, h2], ?_⟩
      · simp [Alts.enc, h1]
      · simp [Alts.dec, hne, h3]
end

end Ofx
