import Verif.Codec.Rel
/-
The forest written by `emit` presents, to the decoder, exactly the elements of the
fields in order.
-/
namespace Ofx

/-- The event of an element at the path `p`. -/
def toEv (p : List Str) : Node → Ev
  | .elem n cs => .hit p n cs
  | .text _ => .junk
  | .misc => .junk

/-- Events of one item. -/
def Item.evs (P : List Str) (it : Item) : List Ev := it.nodes.map (toEv (P ++ it.path))

/-- Every node is an element for a field at path `p`. -/
def Hitting (fs : Fields) (p : List Str) (ns : List Node) : Prop :=
  ∀ nd ∈ ns, ∃ n cs, nd = .elem n cs ∧ fs.hits p n = true

structure GoodItem (fs : Fields) (P : List Str) (it : Item) : Prop where
  path : pathOk fs P it.path = true
  hit : Hitting fs (P ++ it.path) it.nodes
  nil : it.opens = false → it.nodes = []

theorem eventsL_append (fs : Fields) (p : List Str) (a b : List Node) :
    fs.eventsL p (a ++ b) = fs.eventsL p a ++ fs.eventsL p b := by
  induction a with
  | nil => simp [Fields.eventsL]
  | cons x xs ih => simp [Fields.eventsL, ih]

theorem eventsL_hitting {fs : Fields} {p : List Str} {ns : List Node} (h : Hitting fs p ns) :
    fs.eventsL p ns = ns.map (toEv p) := by
  induction ns with
  | nil => simp [Fields.eventsL]
  | cons x xs ih =>
    obtain ⟨n, cs, rfl, hh⟩ := h x (by simp)
    rw [Fields.eventsL, ih (fun nd hnd => h nd (by simp [hnd]))]
    simp [Fields.events, hh, toEv]

/-- Events of the currently open parent. -/
def curEvs (P : List Str) : Option (Str × List Item) → List Ev
  | none => []
  | some (h, acc) => acc.flatMap (Item.evs (P ++ [h]))

/-- Condition on the currently open parent. -/
def GoodCur (fs : Fields) (P : List Str) (d : Nat) : Option (Str × List Item) → Prop
  | none => True
  | some (h, acc) => fs.hits P h = false ∧ fs.under (P ++ [h]) = true ∧
      ∀ it ∈ acc, GoodItem fs (P ++ [h]) it ∧ it.path.length ≤ d

theorem eventsL_closeGroup {fs : Fields} {P : List Str} {d : Nat} {inner : List Item → List Node}
    (hin : ∀ h acc, (∀ it ∈ acc, GoodItem fs (P ++ [h]) it ∧ it.path.length ≤ d) →
      fs.eventsL (P ++ [h]) (inner acc) = acc.flatMap (Item.evs (P ++ [h])))
    (cur : Option (Str × List Item)) (hc : GoodCur fs P d cur) :
    fs.eventsL P (closeGroup inner cur) = curEvs P cur := by
  rcases cur with _ | ⟨h, acc⟩
  · simp [closeGroup, curEvs, Fields.eventsL]
  · obtain ⟨h1, h2, h3⟩ := hc
    simp only [closeGroup, Fields.eventsL, Fields.events, h1, h2, curEvs, List.append_nil]
    simp [hin h acc h3]

theorem goodItem_tail {fs : Fields} {P : List Str} {h : Str} {t : List Str} {o : Bool}
    {ns : List Node} (g : GoodItem fs P ⟨h :: t, o, ns⟩) :
    fs.hits P h = false ∧ fs.under (P ++ [h]) = true ∧ GoodItem fs (P ++ [h]) ⟨t, o, ns⟩ := by
  have hp := g.path
  simp only [pathOk, Bool.and_eq_true, Bool.not_eq_true'] at hp
  refine ⟨hp.1.1, hp.1.2, hp.2, ?_, g.nil⟩
  have := g.hit
  simpa using this

theorem evs_tail (P : List Str) (h : Str) (t : List Str) (o : Bool) (ns : List Node) :
    Item.evs P ⟨h :: t, o, ns⟩ = Item.evs (P ++ [h]) ⟨t, o, ns⟩ := by
  simp [Item.evs]

theorem eventsL_emitGo {fs : Fields} {P : List Str} {d : Nat} {inner : List Item → List Node}
    (hin : ∀ h acc, (∀ it ∈ acc, GoodItem fs (P ++ [h]) it ∧ it.path.length ≤ d) →
      fs.eventsL (P ++ [h]) (inner acc) = acc.flatMap (Item.evs (P ++ [h])))
    (items : List Item) (hi : ∀ it ∈ items, GoodItem fs P it ∧ it.path.length ≤ d + 1)
    (cur : Option (Str × List Item)) (hc : GoodCur fs P d cur) :
    fs.eventsL P (emitGo inner cur items) = curEvs P cur ++ items.flatMap (Item.evs P) := by
  induction items generalizing cur with
  | nil =>
    rw [emitGo, eventsL_closeGroup hin cur hc]; simp
  | cons it rest ih =>
    obtain ⟨g, hl⟩ := hi it (by simp)
    have hi' : ∀ it ∈ rest, GoodItem fs P it ∧ it.path.length ≤ d + 1 :=
      fun x hx => hi x (by simp [hx])
    obtain ⟨path, o, ns⟩ := it
    rcases path with _ | ⟨h, t⟩
    · rw [emitGo, eventsL_append, eventsL_append, eventsL_closeGroup hin cur hc,
        eventsL_hitting (by simpa using g.hit), ih hi' none trivial]
      simp [Item.evs, curEvs]
    · obtain ⟨g1, g2, g3⟩ := goodItem_tail g
      have hl' : t.length ≤ d := by simpa using hl
      have hnew : GoodCur fs P d (if o then some (h, [⟨t, o, ns⟩]) else none) := by
        cases o
        · simp [GoodCur]
        · exact ⟨g1, g2, by simp [g3, hl']⟩
      have hnewE : curEvs P (if o then some (h, [⟨t, o, ns⟩]) else none) = Item.evs P ⟨h :: t, o, ns⟩ := by
        cases o
        · have := g.nil rfl
          simp only at this
          simp [curEvs, Item.evs, this]
        · simp [curEvs, evs_tail]
      rcases cur with _ | ⟨h', acc⟩
      · rw [emitGo, ih hi' _ hnew, hnewE]
        simp [curEvs]
      · by_cases hh : h = h'
        · subst hh
          have hc' : GoodCur fs P d (some (h, acc ++ [⟨t, o, ns⟩])) := by
            refine ⟨hc.1, hc.2.1, ?_⟩
            intro it hit
            rcases List.mem_append.mp hit with hit | hit
            · exact hc.2.2 it hit
            · simp only [List.mem_singleton] at hit
              subst hit
              exact ⟨g3, hl'⟩
          rw [emitGo, if_pos rfl, ih hi' _ hc']
          simp [curEvs, evs_tail]
        · rw [emitGo, if_neg hh, eventsL_append, eventsL_closeGroup hin _ hc, ih hi' _ hnew, hnewE]
          simp

theorem eventsL_emit (fs : Fields) (d : Nat) (P : List Str) (items : List Item)
    (hi : ∀ it ∈ items, GoodItem fs P it ∧ it.path.length ≤ d) :
    fs.eventsL P (emit d items) = items.flatMap (Item.evs P) := by
  induction d generalizing P items with
  | zero =>
    rw [emit]
    induction items with
    | nil => simp [Fields.eventsL]
    | cons it rest ih =>
      obtain ⟨g, hl⟩ := hi it (by simp)
      have hp : it.path = [] := by simpa using hl
      rw [List.flatMap_cons, eventsL_append, ih (fun x hx => hi x (by simp [hx])), List.flatMap_cons]
      congr 1
      rw [eventsL_hitting (by simpa [hp] using g.hit)]
      simp [Item.evs, hp]
  | succ d ih =>
    rw [emit, eventsL_emitGo (d := d) (fun h acc ha => ih _ acc ha) items hi none trivial]
    simp [curEvs]

end Ofx
