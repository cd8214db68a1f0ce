import Verif.Mvr.ForeignSpec
import Verif.Mvr.Props

/-!
# Lemmas about descriptions of other programs
-/

namespace Verif.Mvr

open Verif.Str Verif.Text Verif.Real Verif.Dmx Spec

/-- All members with child nodes. -/
def allSlots : List Slot := classes.flatMap (·.slots)

/-- The nodes and attributes that are looked at are in the lists; a member that takes more than one kind of node is in a mixed list. -/
def slotKnown (s : Slot) : Bool :=
  s.accepts.all (fun p => nodeNames.contains p.1) && (s.rbox.all (fun b => nodeNames.contains b)) &&
    (s.accepts.length ≤ 1 || s.rbox.any (fun b => mixed.contains b))

theorem slots_known : ∀ s ∈ allSlots, slotKnown s = true := by decide +kernel

theorem fields_known : ∀ c ∈ classes, ∀ f ∈ c.fields, ∀ a, f.rplace = .attr a → a ∈ attributeNames := by
  have : ∀ c ∈ classes, ∀ f ∈ c.fields, (match f.rplace with | .attr a => attributeNames.contains a | .own => true) = true := by decide +kernel
  intro c hc f hf a ha
  have h := this c hc f hf
  rw [ha] at h
  simpa using h

theorem upper_eq (t : Text) : t.map upper = makeUpper t := rfl

theorem differ_iff (a b : Text) : Differ a b ↔ eqNoCase a b = false := by
  unfold Differ eqNoCase
  rw [upper_eq, upper_eq]
  simp

theorem differ_ne {a b : Text} (h : Differ a b) : a ≠ b := fun e => h (by rw [e])

theorem same_differ {s : Slot} {n : Text} {m : String} (h : Differ n m.toList) : s.same n m = false := by
  unfold Slot.same
  split
  · exact (differ_iff _ _).1 h
  · simpa using differ_ne h

theorem slot_parts {s : Slot} (hs : s ∈ allSlots) : (∀ p ∈ s.accepts, p.1 ∈ nodeNames) ∧ (∀ b, s.rbox = some b → b ∈ nodeNames) ∧
    (s.accepts.length ≤ 1 ∨ ∃ b ∈ mixed, s.rbox = some b) := by
  have h := slots_known s hs
  unfold slotKnown at h
  simp only [Bool.and_eq_true, Bool.or_eq_true, List.all_eq_true, decide_eq_true_eq] at h
  obtain ⟨⟨h1, h2⟩, h3⟩ := h
  refine ⟨fun p hp => by simpa using h1 p hp, fun b hb => ?_, ?_⟩
  · rw [hb] at h2; simpa using h2
  · rcases h3 with h3 | h3
    · exact .inl h3
    · right
      cases hb : s.rbox with
      | none => rw [hb] at h3; simp at h3
      | some b => rw [hb] at h3; exact ⟨b, by simpa using h3, rfl⟩

/-- An unknown node is not an object of any member. -/
theorem created_unknown {s : Slot} (hs : s ∈ allSlots) {x : Xml} (h : ∀ m ∈ nodeNames, Differ x.name m.toList) : s.created x = none := by
  apply created_none
  rw [List.any_eq_false]
  intro p hp
  rw [same_differ (h _ ((slot_parts hs).1 p hp))]
  simp

/-- In a member with one kind of node, two nodes with different names are not both objects. -/
theorem created_one {s : Slot} (h : s.accepts.length ≤ 1) {x y : Xml} (hd : Differ x.name y.name) : s.created x = none ∨ s.created y = none := by
  cases ha : s.accepts with
  | nil => left; apply created_none; rw [ha]; rfl
  | cons p l =>
    have hl : l = [] := by rw [ha] at h; simp at h; exact h
    subst hl
    cases h1 : s.same x.name p.1 with
    | false => left; apply created_none; rw [ha]; simp [h1]
    | true =>
      cases h2 : s.same y.name p.1 with
      | false => right; apply created_none; rw [ha]; simp [h2]
      | true =>
        exfalso
        apply hd
        unfold Slot.same at h1 h2
        split at h1
        · rename_i hm
          rw [if_pos hm] at h2
          unfold eqNoCase at h1 h2
          rw [upper_eq, upper_eq, of_decide_eq_true h1, of_decide_eq_true h2]
        · rename_i hm
          rw [if_neg hm] at h2
          rw [beq_iff_eq.1 h1, beq_iff_eq.1 h2]

/-- What reading sees of a node is the same. -/
structure Seen (F : Fl) (e f : Xml) : Prop where
  name : e.name = f.name
  text : e.text = f.text
  attrs : ∀ a ∈ attributeNames, e.attr? a.toList = f.attr? a.toList
  kids : ∀ s ∈ allSlots, (s.rbox = none ∨ ∃ b, s.rbox = some b ∧ e.name = b.toList) →
    s.found (read classes F) e.kids = s.found (read classes F) f.kids
  boxes : ∀ s ∈ allSlots, ∀ b, s.rbox = some b → s.found (read classes F) (s.place e) = s.found (read classes F) (s.place f)

theorem slot_read_found (s : Slot) (rd : String → Xml → Obj) (e f : Xml) (h : s.found rd (s.place e) = s.found rd (s.place f)) :
    s.read classes rd e = s.read classes rd f := by
  unfold Slot.read
  unfold Slot.found at h
  simp only [h]

theorem row_cases (cls : String) : row classes cls ∈ classes ∨ ((row classes cls).fields = [] ∧ (row classes cls).slots = []) := by
  unfold row
  cases h : classes.find? (fun c => c.name == cls) with
  | none => exact .inr ⟨rfl, rfl⟩
  | some c => exact .inl (List.mem_of_find?_eq_some h)

theorem seen_read {F : Fl} {e f : Xml} (h : Seen F e f) (cls : String) : read classes F cls e = read classes F cls f := by
  rw [read_eq, read_eq]
  rcases row_cases cls with hc | ⟨h1, h2⟩
  · congr 1
    · unfold decAll
      apply List.map_congr_left
      intro g hg
      congr 1
      cases hp : g.rplace with
      | attr a =>
        have := h.attrs a (fields_known _ hc g hg a hp)
        simp only [Place.get, this]
      | own => exact h.text
    · apply List.map_congr_left
      intro s hs
      have hs' : s ∈ allSlots := List.mem_flatMap.2 ⟨_, hc, hs⟩
      apply slot_read_found
      cases hb : s.rbox with
      | none =>
        have := h.kids s hs' (.inl hb)
        unfold Slot.place
        rw [hb]
        exact this
      | some b => exact h.boxes s hs' b hb
  · rw [h1, h2]; rfl

theorem seen_same {F : Fl} (n : Text) (a a' : List (Text × Text)) (t : Text) (k : List Xml)
    (h : ∀ m ∈ attributeNames, (Scene.Xml.elem n a t k).attr? m.toList = (Scene.Xml.elem n a' t k).attr? m.toList) :
    Seen F (.elem n a t k) (.elem n a' t k) :=
  ⟨rfl, rfl, h, fun _ _ _ => rfl, fun s _ b hb => by unfold Slot.place; rw [hb]; rfl⟩

/-- Only the children differ. -/
theorem seen_kids {F : Fl} (n : Text) (a : List (Text × Text)) (t : Text) (k k' : List Xml)
    (h1 : ∀ s ∈ allSlots, (s.rbox = none ∨ ∃ b, s.rbox = some b ∧ n = b.toList) → s.found (read classes F) k = s.found (read classes F) k')
    (h2 : ∀ s ∈ allSlots, ∀ b, s.rbox = some b →
      s.found (read classes F) (((k.find? (fun c => c.name == b.toList)).map (·.kids)).getD []) =
        s.found (read classes F) (((k'.find? (fun c => c.name == b.toList)).map (·.kids)).getD [])) :
    Seen F (.elem n a t k) (.elem n a t k') :=
  ⟨rfl, rfl, fun _ _ => rfl, h1, fun s hs b hb => by unfold Slot.place; rw [hb]; exact h2 s hs b hb⟩

theorem found_cons (s : Slot) (rd : String → Xml → Obj) (x : Xml) (l : List Xml) : s.found rd (x :: l) = s.found rd [x] ++ s.found rd l :=
  found_append s rd [x] l

theorem found_single_none {s : Slot} (rd : String → Xml → Obj) {x : Xml} (h : s.created x = none) : s.found rd [x] = [] := by
  unfold Slot.found
  simp [h]

/-- The two documents are seen alike. -/
theorem alike_seen (F : Fl) {e f : Xml} (h : Alike e f) : Seen F e f := by
  induction h with
  | refl e => exact ⟨rfl, rfl, fun _ _ => rfl, fun _ _ _ => rfl, fun _ _ _ _ => rfl⟩
  | symm h ih =>
    exact ⟨ih.name.symm, ih.text.symm, fun a ha => (ih.attrs a ha).symm,
      fun s hs hb => (ih.kids s hs (by rw [ih.name]; exact hb)).symm, fun s hs b hb => (ih.boxes s hs b hb).symm⟩
  | trans h1 h2 i1 i2 =>
    exact ⟨i1.name.trans i2.name, i1.text.trans i2.text, fun a ha => (i1.attrs a ha).trans (i2.attrs a ha),
      fun s hs hb => (i1.kids s hs hb).trans (i2.kids s hs (by rw [← i1.name]; exact hb)),
      fun s hs b hb => (i1.boxes s hs b hb).trans (i2.boxes s hs b hb)⟩
  | extraAttribute n a b p t k h =>
    apply seen_same
    intro m hm
    have : (p.1 == m.toList) = false := by simpa using h m hm
    simp [Scene.Xml.attr?, List.find?_append, List.find?_cons, this]
  | attributeOrder n a b p q t k h =>
    apply seen_same
    intro m hm
    simp only [Scene.Xml.attr?, List.find?_append, List.find?_cons]
    cases h1 : p.1 == m.toList with
    | false => cases q.1 == m.toList <;> rfl
    | true =>
      cases h2 : q.1 == m.toList with
      | false => rfl
      | true => exact absurd ((beq_iff_eq.1 h1).trans (beq_iff_eq.1 h2).symm) h
  | extraNode n a t k l x h =>
    apply seen_kids
    · intro s hs _
      rw [found_append, found_cons, found_single_none _ (created_unknown hs h), found_append]
      rfl
    · intro s hs b hb
      have : (x.name == b.toList) = false := by simpa using differ_ne (h b ((slot_parts hs).2.1 b hb))
      simp [List.find?_append, List.find?_cons, this]
  | nodeOrder n a t k l x y hn h =>
    apply seen_kids
    · intro s hs hb
      have hl : s.accepts.length ≤ 1 := by
        rcases (slot_parts hs).2.2 with h1 | ⟨b, hm, h1⟩
        · exact h1
        · rcases hb with hb | ⟨b', hb, hn'⟩
          · rw [hb] at h1; cases h1
          · rw [hb] at h1
            cases h1
            exact absurd hn' (hn _ hm)
      rw [found_append, found_append, found_cons _ _ x (y :: l), found_cons _ _ y l, found_cons _ _ y (x :: l), found_cons _ _ x l]
      rcases created_one hl h with h1 | h1
      · rw [found_single_none _ h1]; simp
      · rw [found_single_none _ h1]; simp
    · intro s hs b hb
      simp only [List.find?_append, List.find?_cons]
      cases h1 : x.name == b.toList with
      | false => cases y.name == b.toList <;> rfl
      | true =>
        cases h2 : y.name == b.toList with
        | false => rfl
        | true => exact absurd ((beq_iff_eq.1 h1).trans (beq_iff_eq.1 h2).symm) (differ_ne h)
  | @inside n a t k l x y h ih =>
    apply seen_kids
    · intro s hs _
      rw [found_append, found_append, found_cons, found_cons _ _ y]
      have hc : s.created x = s.created y := by
        unfold Slot.created
        rw [ih.attrs "uuid" (by decide), ih.name]
      have : s.found (read classes F) [x] = s.found (read classes F) [y] := by
        unfold Slot.found
        simp only [List.filterMap_cons, List.filterMap_nil, hc]
        cases s.created y with
        | none => rfl
        | some c => simp only [Option.map_some, seen_read ih c]
      rw [this]
    · intro s hs b hb
      simp only [List.find?_append, List.find?_cons, ih.name]
      cases hf : k.find? (fun c => c.name == b.toList) with
      | some c => simp
      | none =>
        cases h1 : y.name == b.toList with
        | false => simp
        | true =>
          simp only [Option.none_or, Option.map_some, Option.getD_some]
          exact ih.kids s hs (.inr ⟨b, hb, by rw [ih.name]; exact beq_iff_eq.1 h1⟩)

end Verif.Mvr
