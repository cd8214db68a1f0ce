import Verif.Link.Reports

/-!
# C69: theorems
-/

namespace Verif.Link

open Lookup Lookup.Spec Spec

theorem attrFact_other (T : Table Named) (e : Err) (h1 : e.1 ≠ .logicalAttribute) (h2 : e.1 ≠ .functionAttribute)
    (h3 : e.1 ≠ .mainAttribute) : AttrFact T e (fun _ => True) (fun _ => True) (fun _ => False) :=
  ⟨fun _ _ _ _ => trivial, fun h => absurd h (by simp [h1, h2, h3])⟩

theorem attrFact_known (T : Table Named) (f : Fixture) (e : Err) (hn : Unknown (f.attributes.map Prod.fst) noFeatureText) :
    AttrFact T e (fun s => s.attrs = f.attrState T) (fun t => t ≠ [] ∧ ¬ SameName t noFeatureText)
      (Unknown (f.attributes.map Prod.fst)) := by
  have h0 : (f.attrState T).noFeature = none := (scan_none_iff _ _).2 hn
  have step : ∀ (s : St) t, s.attrs = f.attrState T → t ≠ [] ∧ ¬ SameName t noFeatureText →
      s.getAttr T t = (s, scan (f.attributes.map Prod.fst) t) := by
    intro s t hs ht
    have hsearch := attr_search T _ _ (attr_initial f T) t
    have hnot : eqNoCase t noFeatureText = false := by
      cases hb : eqNoCase t noFeatureText with
      | true => exact absurd ((eqNoCase_iff _ _).1 hb) ht.2
      | false => rfl
    have : s.attrs.getByRef T s.next t = (s.attrs, scan (f.attributes.map Prod.fst) t) := by
      unfold AttrState.getByRef
      rw [hs, hnot]
      simp only [Bool.false_eq_true, if_false, ht.1]
      rw [hsearch hnot]
      cases scan (f.attributes.map Prod.fst) t with
      | some a => rfl
      | none => simp only [h0]
    unfold St.getAttr
    simp only [this]
    rw [hs, h0]
    simp
    rw [← hs]
  refine ⟨fun s t hs ht => by rw [step s t hs ht]; exact hs, fun _ s t hs ht => ?_⟩
  rw [step s t hs ht]
  exact scan_none_iff _ _

/-- **C69**, links to models, geometries, modes, activation groups and features: whenever a description was read, exactly the
links whose text names nothing are reported, with the element they belong to. A mode and a channel need a geometry, so for
them an empty text is reported too. A channel without an initial function takes the first function of its first logical channel;
it is reported if there is none. -/
theorem C69_reported_partial (W : Doc) (T : Table Named) (n : Nat) (F : Mem) (errs : List Err)
    (h : resolve T n W = some (F, errs)) (i : Nat) :
    ((Code.geometryModel, i) ∈ errs ↔ ∃ g ∈ nodes W.geos, g.1.id = i ∧ g.2.1 ≠ [] ∧ Unknown W.models g.2.1) ∧
    ((Code.geometryReference, i) ∈ errs ↔ ∃ g ∈ nodes W.geos, ∃ t, g.1.id = i ∧ g.2.2 = .reference t ∧ Unknown (geometries W) t) ∧
    ((Code.modeGeometry, i) ∈ errs ↔ ∃ m ∈ W.modes, m.me.id = i ∧ (m.geom = [] ∨ Unknown (topGeometries W) m.geom)) ∧
    ((Code.channelGeometry, i) ∈ errs ↔ ∃ c ∈ channels W, c.id = i ∧ (c.geom = [] ∨ Unknown (geometries W) c.geom)) ∧
    ((Code.noFunction, i) ∈ errs ↔ ∃ c ∈ channels W, c.id = i ∧ c.initial = [] ∧ ¬ HasFirst c.logicals) ∧
    ((Code.personality, i) ∈ errs ↔ ∃ p ∈ W.persons, p.1 = i ∧ Unknown (W.modes.map (·.me)) p.2) ∧
    ((Code.activationGroup, i) ∈ errs ↔ ∃ a ∈ W.attrs, a.me.id = i ∧ a.group ≠ [] ∧ Unknown W.groups a.group) ∧
    ((Code.feature, i) ∈ errs ↔ ∃ a ∈ W.attrs, a.me.id = i ∧ a.feature ≠ [] ∧ Unknown (features F) a.feature) := by
  have key := fun (k : Code) (h1 : k ≠ .logicalAttribute) (h2 : k ≠ .functionAttribute) (h3 : k ≠ .mainAttribute) =>
    all_errs h (e := (k, i)) (attrFact_other T (k, i) h1 h2 h3) trivial
      ⟨fun _ _ => trivial, fun _ _ => trivial, fun _ _ _ => trivial⟩
  have flip : ∀ a : Nat, i = a ↔ a = i := fun a => eq_comm
  refine ⟨?_, ?_, ?_, ?_, ?_, ?_, ?_, ?_⟩
  all_goals
    rw [key _ (by decide) (by decide) (by decide) (by simp) (by simp) (by simp)]
    simp [flip, channels]
  all_goals
    constructor
    · rintro ⟨m, hm, c, hc, h⟩; exact ⟨c, ⟨m, hm, hc⟩, h⟩
    · rintro ⟨c, ⟨m, hm, hc⟩, h⟩; exact ⟨m, hm, c, hc, h⟩

/-- **C69**, links to attributes: if the description has no attribute "NoFeature" and no link names it or is empty, exactly the
links whose text names no attribute are reported; those to main attributes only for attributes with a feature. -/
theorem C69_attributes_partial (W : Doc) (T : Table Named) (n : Nat) (F : Mem) (errs : List Err)
    (h : resolve T n W = some (F, errs)) (hno : Unknown (W.attrs.map (·.me)) noFeatureText)
    (hl : ∀ l ∈ logicals W, l.attr ≠ [] ∧ ¬ SameName l.attr noFeatureText)
    (hx : ∀ x ∈ functions W, x.attr ≠ [] ∧ ¬ SameName x.attr noFeatureText)
    (ha : ∀ a ∈ W.attrs, ¬ SameName a.main noFeatureText) (i : Nat) :
    ((Code.logicalAttribute, i) ∈ errs ↔ ∃ l ∈ logicals W, l.id = i ∧ Unknown (W.attrs.map (·.me)) l.attr) ∧
    ((Code.functionAttribute, i) ∈ errs ↔ ∃ x ∈ functions W, x.id = i ∧ Unknown (W.attrs.map (·.me)) x.attr) ∧
    ((Code.mainAttribute, i) ∈ errs ↔
      ∃ a ∈ W.attrs, a.me.id = i ∧ a.feature ≠ [] ∧ a.main ≠ [] ∧ Unknown (W.attrs.map (·.me)) a.main) := by
  rw [← pool_attrs] at hno
  have key := fun (k : Code) => all_errs h (e := (k, i)) (attrFact_known T W.pool (k, i) hno) rfl
      ⟨hl, hx, fun a ha' hm => ⟨hm, ha a ha'⟩⟩
  have flip : ∀ a : Nat, i = a ↔ a = i := fun a => eq_comm
  rw [pool_attrs] at key
  refine ⟨?_, ?_, ?_⟩
  all_goals
    rw [key _ (by simp) (by simp) (by simp)]
    simp [flip, logicals, functions, channels]
  · constructor
    · rintro ⟨m, hm, c, hc, l, hl, h⟩; exact ⟨l, ⟨c, ⟨m, hm, hc⟩, hl⟩, h⟩
    · rintro ⟨l, ⟨c, ⟨m, hm, hc⟩, hl⟩, h⟩; exact ⟨m, hm, c, hc, l, hl, h⟩
  · constructor
    · rintro ⟨m, hm, c, hc, l, hl, x, hx, h⟩; exact ⟨x, ⟨l, ⟨c, ⟨m, hm, hc⟩, hl⟩, hx⟩, h⟩
    · rintro ⟨x, ⟨l, ⟨c, ⟨m, hm, hc⟩, hl⟩, hx⟩, h⟩; exact ⟨m, hm, c, hc, l, hl, x, hx, h⟩

end Verif.Link
