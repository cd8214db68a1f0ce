import Verif.Link.Demo
import Verif.Link.Total

/-!
# C68, C69, C70: what does not hold
-/

namespace Verif.Link

open Lookup Lookup.Spec Spec

/-! ## Descriptions with one geometry -/

theorem trees_one {L : Type} (g : Named) (m : L) (o : Own L) : trees [.node g m o []] = [.node g []] := by simp [trees]

theorem resolveGeos_one (f : Fixture) (T : Table Named) (g : Named) :
    resolveGeos f T [.node g [] .plain []] = ([.node g none .plain []], []) := by
  simp [resolveGeos, resolveModel, resolveOwn]

theorem resolveGeos_none (f : Fixture) (T : Table Named) : resolveGeos f T [] = ([], []) := by simp [resolveGeos]

theorem writeGeos_one (g : Named) : writeGeos [.node g none .plain []] = [.node g [] .plain []] := by
  simp [writeGeos, text, writeOwn]

/-- A fixture with one geometry. -/
def oneGeo {L C M : Type} (nil : L) (features : List (Txt × List Named)) (attrs : List (Attr L)) (modes : List (Mode L C M))
    (persons : List (Nat × L) := []) : Fx L C M where
  groups := []
  features := features
  attrs := attrs
  wheels := []
  models := []
  emitters := []
  filters := []
  connectors := []
  spaces := []
  gamuts := []
  profiles := []
  geos := [.node ⟨1, lit "Head"⟩ nil .plain []]
  modes := modes
  persons := persons

/-- The lookup arrays of a fixture with one geometry. -/
def onePool (attrs : List (Named × List Named)) : Fixture where
  attributes := attrs
  wheels := []
  models := []
  emitters := []
  filters := []
  connectors := []
  colorSpaces := []
  gamuts := []
  profiles := []
  geometries := [.node ⟨1, lit "Head"⟩ []]

theorem pool_one (fs : List (Txt × List Named)) (as : List (Attr Txt)) (ms : List (Mode Txt Txt Txt)) (ps : List (Nat × Txt)) :
    (oneGeo [] fs as ms ps).pool = onePool (as.map fun a => (a.me, a.units)) := by
  unfold Fx.pool oneGeo onePool
  simp only [trees_one, List.map_nil]

theorem resolve_one (T : Table Named) (n : Nat) (fs : List (Txt × List Named)) (as : List (Attr Txt)) (ms : List (Mode Txt Txt Txt))
    (ps : List (Nat × Txt)) :
    resolve T n (oneGeo [] fs as ms ps) =
      (let f := onePool (as.map fun a => (a.me, a.units))
       (thread (resolveMode f T) ⟨f.attrState T, n, [], fs⟩ ms).bind fun r =>
       (thread (masterMode T) () r.2.1).bind fun mm =>
       let qs := ps.map (resolvePerson (ms.map (·.me)))
       (thread (resolveAttr T []) r.1 as).map fun q =>
         (oneGeo none r.1.features (q.2.1 ++ r.1.created) mm.2.1 (qs.map Prod.fst),
           r.2.2 ++ mm.2.2 ++ qs.flatMap Prod.snd ++ q.2.2)) := by
  unfold resolve
  rw [pool_one]
  simp only [oneGeo, resolveGeos_one, List.map_nil, List.nil_append]

/-! ## C68 -/

/-- An attribute without a feature but with a main attribute. -/
def mainOnly : List (Attr Ptr) := [⟨⟨2, lit "Pan"⟩, [], none, none, none⟩, ⟨⟨3, lit "Tilt"⟩, [], none, none, some ⟨2, lit "Pan"⟩⟩]

/-- C68 does not hold for attributes that have a main attribute and no feature: the link is written and not read, without a
report. -/
theorem C68_main_without_feature_violated (T : Table Named) (n : Nat) :
    ∃ W F, write (oneGeo none [] mainOnly []) = some W ∧ resolve T n W = some (F, []) ∧
      W.attrs.map (·.main) = [[], lit "Pan"] ∧ F.attrs.map (·.main) = [none, none] := by
  refine ⟨oneGeo [] [] (mainOnly.map writeAttr) [], oneGeo none [] (mainOnly.map fun a => { a with main := none }) [], ?_, ?_, rfl, rfl⟩
  · unfold write
    simp only [oneGeo, mapO, writeGeos_one, Option.bind_some, Option.map_some, List.map_nil]
  · rw [resolve_one]
    rfl

/-- One mode with one channel on the geometry, one logical channel and one function, "F". -/
def oneFn {L C M : Type} (nil head attr : L) (name lname : Txt) (initial : C) (master : M) (subs : List (Sub L))
    (macros : List (Macro C) := []) : List (Mode L C M) :=
  [⟨⟨10, lit "Mode"⟩, head, [⟨11, name, head, initial,
    [⟨12, lname, attr, [⟨13, lit "F", attr, nil, nil, nil, nil, nil, nil, master, subs⟩]⟩]⟩], [], macros⟩]

/-- The geometry. -/
def head : Ptr := some ⟨1, lit "Head"⟩

/-- Two attributes whose sub-physical units have the same type. -/
def sameUnits : List (Attr Ptr) :=
  [⟨⟨2, lit "Pan"⟩, [⟨4, lit "Duration"⟩], none, none, none⟩, ⟨⟨3, lit "Tilt"⟩, [⟨5, lit "Duration"⟩], none, none, none⟩]

/-- C68 does not hold for sub-physical units: their reference is only their type, so a link to the unit of one attribute comes
back as a link to the unit of another attribute, without a report. -/
theorem C68_units_violated (T : Table Named) (n : Nat) :
    ∃ W F, write (oneGeo none [] sameUnits (oneFn none head (some ⟨3, lit "Tilt"⟩) [] [] (some 13) .unresolved [⟨some ⟨5, lit "Duration"⟩, none⟩])) =
        some W ∧ resolve T n W = some (F, []) ∧
      (functions F).map (·.subs) = [[⟨some ⟨4, lit "Duration"⟩, none⟩]] := by
  refine ⟨oneGeo [] [] (sameUnits.map writeAttr) (oneFn [] (lit "Head") (lit "Tilt") [] [] (lit "Head_Tilt.Tilt.F") [] [⟨lit "Duration", []⟩]),
    oneGeo none [] sameUnits (oneFn none head (some ⟨3, lit "Tilt"⟩) (lit "Head_Tilt") (lit "Tilt") (some 13) .unresolved [⟨some ⟨4, lit "Duration"⟩, none⟩]), ?_, ?_, rfl⟩
  · unfold write
    simp only [oneGeo, writeGeos_one]
    rfl
  · rw [resolve_one]
    rfl

/-- The attribute of the following examples. -/
def tilt : List (Attr Ptr) := [⟨⟨3, lit "Tilt"⟩, [], none, none, none⟩]

/-- C68 does not hold when a channel got another geometry after its name had been used: the name is kept, so the initial function
is written with the old name and is not found. -/
theorem C68_stale_name_violated (T : Table Named) (n : Nat) :
    ∃ W F, write (oneGeo none [] tilt (oneFn none head (some ⟨3, lit "Tilt"⟩) (lit "Base_Tilt") [] (some 13) .unresolved [])) = some W ∧
      resolve T n W = some (F, [(.initialFunction, 11)]) ∧ (channels F).map (·.initial) = [none] := by
  refine ⟨oneGeo [] [] (tilt.map writeAttr) (oneFn [] (lit "Head") (lit "Tilt") [] [] (lit "Base_Tilt.Tilt.F") [] []),
    oneGeo none [] tilt (oneFn none head (some ⟨3, lit "Tilt"⟩) (lit "Head_Tilt") (lit "Tilt") none .unresolved []), ?_, ?_, rfl⟩
  · unfold write
    simp only [oneGeo, writeGeos_one]
    rfl
  · rw [resolve_one]
    rfl

/-- C68 does not hold for null pointers to attributes and to initial functions: an attribute "NoFeature" comes back, which was not
there, and the first function. -/
theorem C68_null_violated (T : Table Named) :
    ∃ W F, write (oneGeo none [] [] (oneFn none head none [] [] none .unresolved [])) = some W ∧ resolve T 100 W = some (F, []) ∧
      (channels F).map (·.initial) = [some 13] ∧ (functions F).map (·.attr) = [some ⟨100, noFeatureText⟩] ∧
      F.attrs.map (·.me) = [⟨100, noFeatureText⟩] ∧ F.features = [(lit "Control", [⟨101, lit "Control"⟩])] := by
  refine ⟨oneGeo [] [] [] (oneFn [] (lit "Head") [] [] [] [] [] []),
    oneGeo none [(lit "Control", [⟨101, lit "Control"⟩])] [⟨⟨100, noFeatureText⟩, [], none, some ⟨101, lit "Control.Control"⟩, none⟩]
      (oneFn none head (some ⟨100, noFeatureText⟩) (lit "Head_NoFeature") (lit "NoFeature") (some 13) .unresolved []), ?_, ?_, rfl, rfl, rfl, rfl⟩
  · unfold write
    simp only [oneGeo, writeGeos_one]
    rfl
  · rw [resolve_one]
    rfl

/-! ## C69 -/

/-- C69 does not hold for attributes: if the description has an attribute "NoFeature", a link to an attribute that does not exist
is not reported and leads to it. -/
theorem C69_attribute_violated (T : Table Named) (n : Nat) :
    ∃ F, resolve T n (oneGeo [] [] [⟨⟨3, lit "NoFeature"⟩, [], [], [], []⟩] (oneFn [] (lit "Head") (lit "Tilt") [] [] [] [] [])) =
        some (F, []) ∧ (functions F).map (·.attr) = [some ⟨3, lit "NoFeature"⟩] := by
  refine ⟨oneGeo none [] [⟨⟨3, lit "NoFeature"⟩, [], none, none, none⟩]
    (oneFn none head (some ⟨3, lit "NoFeature"⟩) (lit "Head_NoFeature") (lit "NoFeature") (some 13) .unresolved []), ?_, rfl⟩
  rw [resolve_one]
  rfl

/-- C69 does not hold for the other links of a function: none of the six elements exists, nothing is reported. -/
theorem C69_function_violated (T : Table Named) (n : Nat) :
    ∃ F, resolve T n (oneGeo [] [] (tilt.map writeAttr) (oneFn (lit "Nothing") (lit "Head") (lit "Tilt") [] [] [] [] [⟨lit "Nothing", lit "Nothing"⟩])) =
        some (F, []) ∧
      (functions F).map (fun x => (x.wheel, x.emitter, x.filter, x.space, x.gamut, x.profile, x.subs)) =
        [(none, none, none, none, none, none, [⟨none, none⟩])] := by
  refine ⟨oneGeo none [] tilt
    (oneFn none head (some ⟨3, lit "Tilt"⟩) (lit "Head_Tilt") (lit "Tilt") (some 13) .unresolved [⟨none, none⟩]), ?_, rfl⟩
  rw [resolve_one]
  rfl

/-- C69 does not hold for main attributes: without a feature the link is not even looked at. -/
theorem C69_main_violated (T : Table Named) (n : Nat) :
    ∃ F, resolve T n (oneGeo [] [] [⟨⟨3, lit "Tilt"⟩, [], [], [], lit "Nothing"⟩] []) = some (F, []) ∧ F.attrs.map (·.main) = [none] := by
  refine ⟨oneGeo none [] tilt [], ?_, rfl⟩
  rw [resolve_one]
  rfl

/-! ## C70 -/

/-- A description with one function and a macro. -/
def withMacro (k : Macro Txt) : Doc := oneGeo [] [] (tilt.map writeAttr) (oneFn [] (lit "Head") (lit "Tilt") [] [] [] [] [] [k])

/-- What is read from it. -/
def readMacro (k : Macro (Option Nat)) : Mem :=
  oneGeo none [] tilt (oneFn none head (some ⟨3, lit "Tilt"⟩) (lit "Head_Tilt") (lit "Tilt") (some 13) .unresolved [] [k])

/-- C70 does not hold: a description whose macro names a channel that does not exist is read with a report, and the fixture cannot
be written without dereferencing a null pointer. -/
theorem C70_macro_channel_violated (T : Table Named) (n : Nat) :
    ∃ F, resolve T n (withMacro ⟨[], [(14, lit "Nothing")], []⟩) = some (F, [(.macroChannel, 14)]) ∧ write F = none := by
  refine ⟨readMacro ⟨none, [(14, none)], []⟩, ?_, rfl⟩
  unfold withMacro
  rw [resolve_one]
  rfl

/-- C70 does not hold: the same for a function, and without a report. -/
theorem C70_macro_function_violated (T : Table Named) (n : Nat) :
    ∃ F, resolve T n (withMacro ⟨[], [], [lit "Nothing"]⟩) = some (F, []) ∧ write F = none := by
  refine ⟨readMacro ⟨none, [], [none]⟩, ?_, rfl⟩
  unfold withMacro
  rw [resolve_one]
  rfl

/-- C70 does not hold: the same for the mode of a personality. -/
theorem C70_personality_violated (T : Table Named) (n : Nat) :
    ∃ F, resolve T n (oneGeo [] [] [] [] [(20, lit "Nothing")]) = some (F, [(.personality, 20)]) ∧ write F = none := by
  refine ⟨oneGeo none [] [] [] [(20, none)], ?_, rfl⟩
  rw [resolve_one]
  rfl

/-- C70 does not hold: a null pointer is dereferenced while reading a channel that names an initial function and an attribute
that does not exist. -/
theorem C70_initial_violated (T : Table Named) (n : Nat) :
    resolve T n (oneGeo [] [] [] (oneFn [] (lit "Head") (lit "Tilt") [] [] (lit "Head_Tilt.Tilt.F") [] [])) = none := by
  rw [resolve_one]
  rfl

/-- C70 does not hold: the array of attributes changes while a loop runs over it, if an attribute has the main attribute
"NoFeature" and there is no such attribute. -/
theorem C70_main_violated (T : Table Named) (n : Nat) :
    resolve T n (oneGeo [] [(lit "Beam", [⟨5, lit "Beam"⟩])] [⟨⟨3, lit "Tilt"⟩, [], [], lit "Beam.Beam", lit "NoFeature"⟩] []) = none := by
  rw [resolve_one]
  rfl

/-! ## The theorems on a concrete description -/

/-- A description with a macro whose links all exist. -/
def goodMacro : Doc := withMacro ⟨lit "Head_Tilt.Tilt.F", [(14, lit "Head_Tilt")], [lit "Head_Tilt.Tilt.F"]⟩

/-- C70: it satisfies the conditions, is read and can be written. -/
example (T : Table Named) (n : Nat) : ∃ F, resolve T n goodMacro = some (F, []) ∧ write F ≠ none := by
  refine ⟨readMacro ⟨some 13, [(14, some 11)], [some 13]⟩, ?_, by rw [show write _ = some _ from rfl]; simp⟩
  unfold goodMacro withMacro
  rw [resolve_one]
  rfl

example : (∀ l ∈ logicals goodMacro, Leads (goodMacro.attrs.map (·.me)) l.attr) ∧
    (∀ x ∈ functions goodMacro, Leads (goodMacro.attrs.map (·.me)) x.attr) ∧
    (∀ a ∈ goodMacro.attrs, SameName a.main noFeatureText → ∃ b ∈ goodMacro.attrs, SameName b.me.ref noFeatureText) := by
  unfold Leads
  exact ⟨by decide +kernel, by decide +kernel, by decide +kernel⟩

/-- A description with links to an attribute and to a mode that do not exist: C69 says what is reported. -/
example (T : Table Named) (n : Nat) :
    ∃ F, resolve T n (oneGeo [] [] (tilt.map writeAttr) (oneFn [] (lit "Head") (lit "Zoom") [] [] [] [] []) [(20, lit "Nothing")]) =
      some (F, [(.logicalAttribute, 12), (.functionAttribute, 13), (.personality, 20)]) := by
  refine ⟨oneGeo none [] tilt (oneFn none head none [] [] (some 13) .unresolved []) [(20, none)], ?_⟩
  rw [resolve_one]
  rfl

/-- A function with a mode master that does not exist: its channel is reported. -/
example (T : Table Named) (n : Nat) :
    ∃ F, resolve T n (oneGeo [] [] (tilt.map writeAttr) (oneFn [] (lit "Head") (lit "Tilt") [] [] [] (lit "Nothing") [])) =
      some (F, [(.modeMaster, 11)]) ∧ (functions F).map (·.master) = [.unresolved] := by
  refine ⟨oneGeo none [] tilt (oneFn none head (some ⟨3, lit "Tilt"⟩) (lit "Head_Tilt") (lit "Tilt") (some 13) .unresolved []), ?_, rfl⟩
  rw [resolve_one]
  rfl

end Verif.Link
