import Verif.Lookup.Lemmas

/-!
# C30, C31: looking up elements by name
-/

namespace Verif.Lookup

open Spec

/-- C30: wheels, models, emitters, filters, connectors, color spaces, gamuts, DMX profiles and sub-physical units. For every
fixture, large or small, and every behaviour of the hash table, the lookup gives the first element with that name up to
case. -/
theorem C30_getByRef (f : Fixture) (T : Table Named) (k : Kind) (ref : Txt) :
    FirstNamed (f.elements k) ref (f.getByRef T k ref) := by
  unfold Fixture.getByRef
  split
  · rw [find_buildIndex]; exact scan_first _ _
  · exact scan_first _ _

/-- C30: each kind is looked up among the elements of that kind of the fixture type, sub-physical units among those of
all attributes. -/
theorem C30_each_kind (f : Fixture) (T : Table Named) (ref : Txt) :
    FirstNamed f.wheels ref (f.getByRef T .wheel ref) ∧ FirstNamed f.models ref (f.getByRef T .model ref) ∧
    FirstNamed f.emitters ref (f.getByRef T .emitter ref) ∧ FirstNamed f.filters ref (f.getByRef T .filter ref) ∧
    FirstNamed f.connectors ref (f.getByRef T .connector ref) ∧
    FirstNamed f.colorSpaces ref (f.getByRef T .colorSpace ref) ∧ FirstNamed f.gamuts ref (f.getByRef T .gamut ref) ∧
    FirstNamed f.profiles ref (f.getByRef T .profile ref) ∧
    FirstNamed (f.attributes.map Prod.snd).flatten ref (f.getByRef T .subUnit ref) :=
  ⟨C30_getByRef f T .wheel ref, C30_getByRef f T .model ref, C30_getByRef f T .emitter ref, C30_getByRef f T .filter ref,
    C30_getByRef f T .connector ref, C30_getByRef f T .colorSpace ref, C30_getByRef f T .gamut ref,
    C30_getByRef f T .profile ref, C30_getByRef f T .subUnit ref⟩

theorem getByRef_eq (f : Fixture) (T : Table Named) (k : Kind) (ref : Txt) : f.getByRef T k ref = scan (f.elements k) ref :=
  (C30_getByRef f T k ref).unique

/-- C30: the size of the fixture has no influence: two fixtures with the same elements of a kind give the same result. -/
theorem C30_size_independent (f f' : Fixture) (T T' : Table Named) (k : Kind) (ref : Txt)
    (h : f.elements k = f'.elements k) : f.getByRef T k ref = f'.getByRef T' k ref := by
  rw [(C30_getByRef f T k ref).unique, (C30_getByRef f' T' k ref).unique, h]

/-- C30: the hash used by the tables fits to the comparison of texts: equal names have equal hashes. -/
theorem C30_hash_consistent (T : Table Named) (n : Nat) (s t : Txt) (h : eqNoCase s t = true) : T.bucket n s = T.bucket n t := by
  unfold Table.bucket
  rw [(makeLower_iff s t).2 ((eqNoCase_iff s t).1 h)]

/-- C30: comparing texts means equality up to the case of ASCII letters. -/
theorem C30_equality (s t : Txt) : eqNoCase s t = true ↔ SameName s t := eqNoCase_iff s t

/-! ### Attributes: the lookup may create the attribute NoFeature -/

/-- A state of the attribute lookup that started from the attributes `as`. -/
structure AttrInv (T : Table Named) (as : List Named) (s : AttrState) : Prop where
  attrs : ∃ extra, s.attrs = as ++ extra ∧ ∀ x ∈ extra, x.ref = noFeatureText
  index : ∀ idx, s.index = some idx → idx = buildIndex T as

theorem attr_search (T : Table Named) (as : List Named) (s : AttrState) (h : AttrInv T as s) (ref : Txt)
    (hr : eqNoCase ref noFeatureText = false) :
    s.search T ref = scan as ref := by
  unfold AttrState.search
  obtain ⟨⟨extra, he, hx⟩, hi⟩ := h
  cases hidx : s.index with
  | some idx => simp only; rw [hi idx hidx, find_buildIndex]
  | none =>
    simp only
    rw [he, scan_append]
    have : scan extra ref = none := by
      refine List.find?_eq_none.2 (fun x hx' => ?_)
      rw [hx x hx', eqNoCase_comm, hr]; simp
    rw [this, Option.or_none]

theorem attr_needNoFeature (T : Table Named) (as : List Named) (s : AttrState) (h : AttrInv T as s) (fresh : Nat) :
    AttrInv T as (s.needNoFeature fresh).1 := by
  unfold AttrState.needNoFeature
  cases s.noFeature with
  | some a => exact h
  | none =>
    obtain ⟨⟨extra, he, hx⟩, hi⟩ := h
    refine ⟨⟨extra ++ [⟨fresh, noFeatureText⟩], ?_, ?_⟩, hi⟩
    · simp [AttrState.createNoFeature, he]
    · intro x hx'
      rcases List.mem_append.1 hx' with h1 | h1
      · exact hx x h1
      · rw [List.mem_singleton.1 h1]

theorem attr_step (T T' : Table Named) (as : List Named) (s s' : AttrState) (h : AttrInv T as s) (h' : AttrInv T' as s')
    (hn : s.noFeature = s'.noFeature) (fresh : Nat) (ref : Txt) :
    (s.getByRef T fresh ref).2 = (s'.getByRef T' fresh ref).2 ∧
    (s.getByRef T fresh ref).1.noFeature = (s'.getByRef T' fresh ref).1.noFeature ∧
    AttrInv T as (s.getByRef T fresh ref).1 ∧ AttrInv T' as (s'.getByRef T' fresh ref).1 := by
  have need : (s.needNoFeature fresh).2 = (s'.needNoFeature fresh).2 ∧
      (s.needNoFeature fresh).1.noFeature = (s'.needNoFeature fresh).1.noFeature := by
    unfold AttrState.needNoFeature
    rw [← hn]
    cases hs : s.noFeature with
    | some a => exact ⟨rfl, by rw [hs, ← hn, hs]⟩
    | none => exact ⟨rfl, rfl⟩
  unfold AttrState.getByRef
  by_cases hr : eqNoCase ref noFeatureText = true
  · simp only [if_pos hr]
    exact ⟨need.1, need.2, attr_needNoFeature T as s h fresh, attr_needNoFeature T' as s' h' fresh⟩
  · simp only [if_neg hr]
    have hr' : eqNoCase ref noFeatureText = false := by simpa using hr
    rw [attr_search T as s h ref hr', attr_search T' as s' h' ref hr']
    cases scan as ref with
    | some a => exact ⟨rfl, hn, h, h'⟩
    | none =>
      simp only
      split
      · exact ⟨need.1, need.2, attr_needNoFeature T as s h fresh, attr_needNoFeature T' as s' h' fresh⟩
      · exact ⟨hn, hn, h, h'⟩

theorem attr_run (T T' : Table Named) (as : List Named) (refs : List Txt) : ∀ (s s' : AttrState) (fresh : Nat),
    AttrInv T as s → AttrInv T' as s' → s.noFeature = s'.noFeature →
    AttrState.run T s fresh refs = AttrState.run T' s' fresh refs := by
  induction refs with
  | nil => intros; rfl
  | cons r refs ih =>
    intro s s' fresh h h' hn
    obtain ⟨h1, h2, h3, h4⟩ := attr_step T T' as s s' h h' hn fresh r
    simp only [AttrState.run]
    rw [h1, ih _ _ _ h3 h4 h2]

theorem attr_initial (f : Fixture) (T : Table Named) : AttrInv T (f.attributes.map Prod.fst) (f.attrState T) := by
  refine ⟨⟨[], by simp [Fixture.attrState], by simp⟩, ?_⟩
  intro idx h
  unfold Fixture.attrState at h
  simp only at h
  split at h
  · simpa using h.symm
  · simp at h

/-- C30, attributes: every history of attribute lookups gives the same results in a small and in a large fixture with the
same attributes. -/
theorem C30_attributes_size_independent (f f' : Fixture) (T T' : Table Named) (fresh : Nat) (refs : List Txt)
    (h : f.attributes.map Prod.fst = f'.attributes.map Prod.fst) :
    AttrState.run T (f.attrState T) fresh refs = AttrState.run T' (f'.attrState T') fresh refs := by
  refine attr_run T T' (f.attributes.map Prod.fst) refs _ _ fresh (attr_initial f T) (h ▸ attr_initial f' T') ?_
  simp [Fixture.attrState, h]

/-- The states of the attribute lookup that a history of lookups reaches. -/
inductive Reached (T : Table Named) (f : Fixture) : AttrState → Prop where
  | start : Reached T f (f.attrState T)
  | step {s : AttrState} (fresh : Nat) (ref : Txt) : Reached T f s → Reached T f (s.getByRef T fresh ref).1

theorem Reached.inv {T : Table Named} {f : Fixture} {s : AttrState} (h : Reached T f s) :
    AttrInv T (f.attributes.map Prod.fst) s := by
  induction h with
  | start => exact attr_initial f T
  | step fresh ref _ ih => exact (attr_step T T _ _ _ ih ih rfl fresh ref).2.2.1

/-- C30, attributes: at every moment, the name of an existing attribute other than NoFeature gives the first attribute with
that name up to case. -/
theorem C30_attribute (f : Fixture) (T : Table Named) (s : AttrState) (h : Reached T f s) (fresh : Nat) (ref : Txt)
    (hn : ¬ SameName ref (lit "NoFeature")) (a : Named) (ha : FirstNamed (f.attributes.map Prod.fst) ref (some a)) :
    (s.getByRef T fresh ref).2 = some a := by
  have hr : eqNoCase ref noFeatureText = false := by
    cases hb : eqNoCase ref noFeatureText with
    | false => rfl
    | true => exact absurd ((eqNoCase_iff _ _).1 hb) hn
  unfold AttrState.getByRef
  rw [if_neg (by rw [hr]; decide), attr_search T _ s h.inv ref hr, ← ha.unique]

theorem Reached.noFeature {T : Table Named} {f : Fixture} {s : AttrState} (h : Reached T f s) :
    ∀ a, s.noFeature = some a → SameName a.ref (lit "NoFeature") := by
  have need : ∀ (s : AttrState) (fresh : Nat), (∀ a, s.noFeature = some a → SameName a.ref (lit "NoFeature")) →
      ∀ a, (s.needNoFeature fresh).1.noFeature = some a → SameName a.ref (lit "NoFeature") := by
    intro s fresh ih a ha
    unfold AttrState.needNoFeature at ha
    cases hs : s.noFeature with
    | some b => rw [hs] at ha; exact ih a ha
    | none =>
      rw [hs] at ha
      simp only [AttrState.createNoFeature, Option.some.injEq] at ha
      rw [← ha]; exact SameName.refl _
  induction h with
  | start =>
    intro a ha
    have : scan (f.attributes.map Prod.fst) noFeatureText = some a := ha
    exact (eqNoCase_iff _ _).1 (List.find?_some (p := fun x : Named => eqNoCase x.ref noFeatureText) this)
  | step fresh ref _ ih =>
    intro a ha
    unfold AttrState.getByRef at ha
    split at ha
    · exact need _ _ ih a ha
    · split at ha
      · exact ih a ha
      · split at ha
        · exact need _ _ ih a ha
        · exact ih a ha

/-- C30, attributes: the name NoFeature always gives an attribute with that name. -/
theorem C30_noFeature (f : Fixture) (T : Table Named) (s : AttrState) (h : Reached T f s) (fresh : Nat) (ref : Txt)
    (hn : SameName ref (lit "NoFeature")) :
    ∃ a, (s.getByRef T fresh ref).2 = some a ∧ SameName a.ref (lit "NoFeature") := by
  unfold AttrState.getByRef
  rw [if_pos ((eqNoCase_iff ref noFeatureText).2 hn)]
  unfold AttrState.needNoFeature
  cases hs : s.noFeature with
  | some a => exact ⟨a, rfl, h.noFeature a hs⟩
  | none => exact ⟨_, rfl, SameName.refl _⟩

/-- C30, attributes: a name that no attribute has is not an error of the lookup: the attribute NoFeature is returned if it
exists, a null pointer otherwise, so the answer depends on what was looked up before. -/
theorem C30_unknown_attribute_violated (T : Table Named) (f : Fixture) (hf : f.attributes = []) :
    AttrState.run T (f.attrState T) 7 [lit "Pan"] = [none] ∧
    AttrState.run T (f.attrState T) 7 [lit "NoFeature", lit "Pan"] = [some ⟨7, lit "NoFeature"⟩, some ⟨7, lit "NoFeature"⟩] := by
  have h1 : scan [] (lit "Pan") = none := rfl
  have hs := attr_initial f T
  rw [hf] at hs
  have hn : (f.attrState T).noFeature = none := by simp [Fixture.attrState, hf, scan]
  have e1 : eqNoCase (lit "Pan") noFeatureText = false := by decide +kernel
  have e2 : eqNoCase (lit "NoFeature") noFeatureText = true := by decide +kernel
  have e3 : lit "Pan" ≠ [] := by decide +kernel
  have step : ∀ (s : AttrState), AttrInv T [] s → ∀ fresh, s.getByRef T fresh (lit "Pan") = (s, s.noFeature) := by
    intro s h fresh
    unfold AttrState.getByRef
    rw [if_neg (by rw [e1]; decide), attr_search T [] s h _ e1, h1]
    simp only [if_neg e3]
  have hs' := attr_needNoFeature T [] (f.attrState T) hs 7
  constructor
  · simp only [AttrState.run, step _ hs, hn]
  · have e4 : (f.attrState T).getByRef T 7 (lit "NoFeature") = (f.attrState T).needNoFeature 7 := by
      unfold AttrState.getByRef
      rw [if_pos e2]
    simp only [AttrState.run, e4, step _ hs']
    unfold AttrState.needNoFeature
    simp only [hn]
    rfl

/-- C30, sub-physical units: their references are the names of their types, and all attributes are searched. If two attributes
have a unit of the same type, the unit of the first attribute is always taken, also for a channel function with the second
attribute. -/
theorem C30_subunit_of_other_attribute (f : Fixture) (T : Table Named) (a b u v : Named) (name : Txt)
    (h : f.attributes = [(a, [u]), (b, [v])]) (hu : SameName u.ref name) : f.getByRef T .subUnit name = some u := by
  rw [(C30_getByRef f T .subUnit name).unique]
  simp only [Fixture.elements, h, List.flatMap_cons, List.flatMap_nil, List.append_nil]
  simp only [List.cons_append, List.nil_append]
  rw [scan_cons, if_pos ((eqNoCase_iff _ _).2 hu)]
  rfl

/-- A hash table that keeps the newest element first and has a bad hash function. -/
def demoTable : Table Named := ⟨List.length, fun n => n / 2 + 1, fun l e => e :: l, fun _ _ => List.Perm.refl _⟩

/-- A fixture with 130 wheels, of which number 3 and number 100 have the same name up to case. -/
def demoFixture : Fixture :=
  { attributes := [(⟨500, lit "Dimmer"⟩, []), (⟨501, lit "dimmer"⟩, [])]
    wheels := (List.range 130).map (fun i =>
      ⟨i, if i = 3 then lit "Gobo" else if i = 100 then lit "GOBO" else lit "W" ++ [BitVec.ofNat 16 (1000 + i)]⟩)
    models := [], emitters := [], filters := [], connectors := [], colorSpaces := [], gamuts := [], profiles := []
    geometries := [.node ⟨1, lit "Base"⟩ [.node ⟨2, lit "Head"⟩ [.node ⟨3, lit "Beam"⟩ []], .node ⟨4, lit "beam"⟩ []],
      .node ⟨5, lit "BEAM"⟩ []] }

example : demoFixture.useIndexes = true := by decide +kernel
example : (demoFixture.getByRef demoTable .wheel (lit "gobo")).map (·.id) = some 3 :=
  (congrArg (Option.map Named.id) (getByRef_eq demoFixture demoTable .wheel (lit "gobo"))).trans (by decide +kernel)
example : FirstNamed (demoFixture.attributes.map Prod.fst) (lit "DIMMER") (some ⟨500, lit "Dimmer"⟩) :=
  ⟨[], [⟨501, lit "dimmer"⟩], rfl, (eqNoCase_iff _ _).1 (by decide +kernel), by simp⟩
example : ¬ SameName (lit "DIMMER") (lit "NoFeature") := fun h => absurd ((eqNoCase_iff _ _).2 h) (by decide +kernel)

/-! ## C31 -/

/-- C31: the name of a geometry gives the first geometry with that name in document order, with and without index. -/
theorem C31_resolveGeometry (f : Fixture) (T : Table Named) (ref : Txt) :
    FirstNamed (documentOrder f.geometries) ref (f.resolveGeometry T ref) := by
  unfold Fixture.resolveGeometry
  split
  · rw [(find_indexGeo T [] f.geometries uniq_nil).2, find_nil]
    exact scan_first _ _
  · rw [walkGeo_eq]; exact scan_first _ _

theorem resolveGeometry_eq (f : Fixture) (T : Table Named) (ref : Txt) :
    f.resolveGeometry T ref = scan (documentOrder f.geometries) ref := (C31_resolveGeometry f T ref).unique

/-- C31: the same for the geometry of a DMX channel, if the channel names one. -/
theorem C31_channelGeometry (f : Fixture) (T : Table Named) (ref : Txt) (hr : ref ≠ []) :
    FirstNamed (documentOrder f.geometries) ref (f.channelGeometry T ref) := by
  unfold Fixture.channelGeometry
  rw [if_neg hr]
  split
  · rw [(find_indexGeo T [] f.geometries uniq_nil).2, find_nil]
    exact scan_first _ _
  · rw [chanLoop_eq]; exact scan_first _ _

/-- C31: a channel without a geometry name has no geometry, even if a geometry with an empty name exists. -/
theorem C31_channelGeometry_empty (f : Fixture) (T : Table Named) : f.channelGeometry T [] = none := by
  simp [Fixture.channelGeometry]

/-- C31: the geometry of a mode is the first top geometry with the name; geometries further down are not considered. -/
theorem C31_modeGeometry (f : Fixture) (ref : Txt) (hr : ref ≠ []) :
    FirstNamed (f.geometries.map (fun g => match g with | .node n _ => n)) ref (f.modeGeometry ref) := by
  unfold Fixture.modeGeometry
  rw [if_neg hr]
  exact scan_first _ _

/-- C31: a channel and a geometry reference with the same name mean the same geometry, in fixtures of all sizes. -/
theorem C31_agree (f f' : Fixture) (T T' : Table Named) (ref : Txt) (hr : ref ≠ [])
    (h : documentOrder f.geometries = documentOrder f'.geometries) :
    f.channelGeometry T ref = f'.resolveGeometry T' ref := by
  rw [(C31_channelGeometry f T ref hr).unique, (C31_resolveGeometry f' T' ref).unique, h]

example : (documentOrder demoFixture.geometries).map (·.id) = [1, 2, 3, 4, 5] := by
  simp [demoFixture, documentOrder]
example : (demoFixture.resolveGeometry demoTable (lit "BEAM")).map (·.id) = some 3 :=
  (congrArg (Option.map Named.id) (resolveGeometry_eq demoFixture demoTable (lit "BEAM"))).trans (by
    simp only [demoFixture, documentOrder]
    decide +kernel)

end Verif.Lookup
