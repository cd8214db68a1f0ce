import Verif.Enum.Model

/-!
# C18: every enumeration value survives writing and reading
-/

namespace Verif.Enum
open Verif.Str Verif.Text

/-- Two texts are equal up to the case of ASCII letters. -/
def SameText (a b : List Char) : Prop := a.map upChar = b.map upChar

/-- What C18 says about one enumeration: `write` gives the text of a value, `read text old` is the reader called with an
output variable holding `old`; `dflt` is the documented default and `reported` tells whether an unknown text is reported. -/
structure SurvivesText {E : Type} (write : E → List Char) (read : List Char → E → Conv E)
    (dflt : E → E) (reported : Bool) : Prop where
  /-- writing and reading gives the value back, whatever the case of the letters, and without an error -/
  roundtrip : ∀ v s old, SameText s (write v) → read s old = ⟨true, false, v⟩
  /-- distinct values have distinct texts, also when compared without case -/
  distinct : ∀ v w, SameText (write v) (write w) → v = w
  /-- a non-empty text that is the text of no value gives the default -/
  unknown : ∀ s old, s ≠ [] → (∀ v, ¬ SameText s (write v)) → read s old = ⟨true, reported, dflt old⟩

theorem sameText_iff (a b : List Char) : eqNoCase a b = true ↔ SameText a b := by
  unfold eqNoCase SameText makeUpper
  exact decide_eq_true_iff

theorem find_congr {E : Type} (t : List (String × E)) (a b : List Char) (h : SameText a b) :
    t.find? (fun p => eqNoCase a p.1.toList) = t.find? (fun p => eqNoCase b p.1.toList) := by
  unfold SameText at h
  have : (fun p : String × E => eqNoCase a p.1.toList) = fun p => eqNoCase b p.1.toList := by
    funext p; unfold eqNoCase makeUpper; rw [h]
  rw [this]

theorem survives_aux {E : Type} (write : E → List Char) (r : Reader E)
    (h1 : ∀ v, (r.table.find? (fun p => eqNoCase (write v) p.1.toList)).map (·.2) = some v)
    (h2 : ∀ p ∈ r.table, SameText p.1.toList (write p.2)) :
    SurvivesText write r.run (fun old => r.unknown.getD old) r.reports where
  roundtrip := by
    intro v s old hs
    have := h1 v
    unfold Reader.run
    rw [find_congr r.table s (write v) hs]
    cases hf : r.table.find? (fun p => eqNoCase (write v) p.1.toList) with
    | none => rw [hf] at this; simp at this
    | some p => rw [hf] at this; simp only [Option.map_some, Option.some.injEq] at this; simp [this]
  distinct := by
    intro v w h
    have a := h1 v
    rw [find_congr r.table _ _ h, h1 w] at a
    exact (Option.some.inj a).symm
  unknown := by
    intro s old hne hs
    unfold Reader.run
    have : r.table.find? (fun p => eqNoCase s p.1.toList) = none := by
      rw [List.find?_eq_none]
      intro p hp he
      rw [sameText_iff] at he
      apply hs p.2
      unfold SameText at he ⊢
      rw [he]; exact h2 p hp
    rw [this, if_neg hne]

/-- It is enough to check the table: the text of each value finds the value, and every table entry is the text of its value. -/
theorem survives {E : Type} [DecidableEq E] (write : E → List Char) (r : Reader E)
    (h0 : ∀ v, (r.table.map (·.2)).elem v = true)
    (h12 : ∀ p ∈ r.table, (r.table.find? (fun q => eqNoCase (write p.2) q.1.toList)).map (·.2) = some p.2 ∧
      p.1.toList = write p.2) :
    SurvivesText write r.run (fun old => r.unknown.getD old) r.reports := by
  have h1 : ∀ v, (r.table.find? (fun p => eqNoCase (write v) p.1.toList)).map (·.2) = some v := by
    intro v
    have := List.mem_map.1 (List.elem_iff.1 (h0 v))
    obtain ⟨p, hp, e⟩ := this
    rw [← e]; exact (h12 p hp).1
  have h2 : ∀ p ∈ r.table, SameText p.1.toList (write p.2) := by
    intro p hp
    unfold SameText; rw [(h12 p hp).2]
  exact survives_aux write r h1 h2


/-- **C18** for `PrimitiveType` (13 values); default Undefined. -/
theorem C18_PrimitiveType : SurvivesText writePrimitiveType readPrimitiveType.run (fun _ => .cUndefined) true :=
  survives writePrimitiveType readPrimitiveType (by intro v; cases v <;> rfl) (by decide +kernel)

/-- **C18** for `Special` (15 values); default None. -/
theorem C18_Special : SurvivesText writeSpecial readSpecial.run (fun _ => .cNone) true :=
  survives writeSpecial readSpecial (by intro v; cases v <;> rfl) (by decide +kernel)

/-- **C18** for `PhysicalUnit` (22 values); default None. -/
theorem C18_PhysicalUnit : SurvivesText writePhysicalUnit readPhysicalUnit.run (fun _ => .cNone) true :=
  survives writePhysicalUnit readPhysicalUnit (by intro v; cases v <;> rfl) (by decide +kernel)

/-- **C18** for `BeamType` (7 values); default Wash. -/
theorem C18_BeamType : SurvivesText writeBeamType readBeamType.run (fun _ => .cWash) true :=
  survives writeBeamType readBeamType (by intro v; cases v <;> rfl) (by decide +kernel)

/-- **C18** for `LampType` (4 values); default Dischange. -/
theorem C18_LampType : SurvivesText writeLampType readLampType.run (fun _ => .cDischange) true :=
  survives writeLampType readLampType (by intro v; cases v <;> rfl) (by decide +kernel)

/-- **C18** for `DmxSnap` (4 values); default No. -/
theorem C18_DmxSnap : SurvivesText writeDmxSnap readDmxSnap.run (fun _ => .cNo) true :=
  survives writeDmxSnap readDmxSnap (by intro v; cases v <;> rfl) (by decide +kernel)

/-- **C18** for `DmxMaster` (3 values); default None. -/
theorem C18_DmxMaster : SurvivesText writeDmxMaster readDmxMaster.run (fun _ => .cNone) true :=
  survives writeDmxMaster readDmxMaster (by intro v; cases v <;> rfl) (by decide +kernel)

/-- **C18** for `DmxRelationType` (2 values); default Override. -/
theorem C18_DmxRelationType : SurvivesText writeDmxRelationType readDmxRelationType.run (fun _ => .cOverride) true :=
  survives writeDmxRelationType readDmxRelationType (by intro v; cases v <;> rfl) (by decide +kernel)

/-- **C18** for `ColorSample` (99 values); default (output left alone). -/
theorem C18_ColorSample : SurvivesText writeColorSample readColorSample.run (fun old => old) true :=
  survives writeColorSample readColorSample (by intro v; cases v <;> rfl) (by decide +kernel)

/-- **C18** for `ColorSpace` (4 values); default (output left alone). -/
theorem C18_ColorSpace : SurvivesText writeColorSpace readColorSpace.run (fun old => old) true :=
  survives writeColorSpace readColorSpace (by intro v; cases v <;> rfl) (by decide +kernel)

/-- **C18** for `InterpolationTo` (3 values); default Linear. -/
theorem C18_InterpolationTo : SurvivesText writeInterpolationTo readInterpolationTo.run (fun _ => .cLinear) true :=
  survives writeInterpolationTo readInterpolationTo (by intro v; cases v <;> rfl) (by decide +kernel)

/-- **C18** for `SourceType` (4 values); default NDI. -/
theorem C18_SourceType : SurvivesText writeSourceType readSourceType.run (fun _ => .cNDI) false :=
  survives writeSourceType readSourceType (by intro v; cases v <;> rfl) (by decide +kernel)

/-- **C18** for `ScaleHandlingType` (3 values); default ScaleKeepRatio. -/
theorem C18_ScaleHandlingType : SurvivesText writeScaleHandlingType readScaleHandlingType.run (fun _ => .cScaleKeepRatio) false :=
  survives writeScaleHandlingType readScaleHandlingType (by intro v; cases v <;> rfl) (by decide +kernel)

/-- **C18** for `LaserColorType` (2 values); default RGB. -/
theorem C18_LaserColorType : SurvivesText writeLaserColorType readLaserColorType.run (fun _ => .cRGB) false :=
  survives writeLaserColorType readLaserColorType (by intro v; cases v <;> rfl) (by decide +kernel)

/-- **C18** for `ComponentType` (9 values); default Input. -/
theorem C18_ComponentType : SurvivesText writeComponentType readComponentType.run (fun _ => .cInput) false :=
  survives writeComponentType readComponentType (by intro v; cases v <;> rfl) (by decide +kernel)

/-- **C18** for `Orientation` (4 values); default Left. -/
theorem C18_Orientation : SurvivesText writeOrientation readOrientation.run (fun _ => .cLeft) false :=
  survives writeOrientation readOrientation (by intro v; cases v <;> rfl) (by decide +kernel)

/-- **C18** for `FuseRating` (5 values); default B. -/
theorem C18_FuseRating : SurvivesText writeFuseRating readFuseRating.run (fun _ => .cB) false :=
  survives writeFuseRating readFuseRating (by intro v; cases v <;> rfl) (by decide +kernel)

/-- **C18** for `StructureType` (2 values); default CenterLineBased. -/
theorem C18_StructureType : SurvivesText writeStructureType readStructureType.run (fun _ => .cCenterLineBased) false :=
  survives writeStructureType readStructureType (by intro v; cases v <;> rfl) (by decide +kernel)

/-- **C18** for `CrossSectionType` (2 values); default TrussFramework. -/
theorem C18_CrossSectionType : SurvivesText writeCrossSectionType readCrossSectionType.run (fun _ => .cTrussFramework) false :=
  survives writeCrossSectionType readCrossSectionType (by intro v; cases v <;> rfl) (by decide +kernel)

/-- **C18** for `SupportType` (2 values); default Rope. -/
theorem C18_SupportType : SurvivesText writeSupportType readSupportType.run (fun _ => .cRope) false :=
  survives writeSupportType readSupportType (by intro v; cases v <;> rfl) (by decide +kernel)

/-- **C18** for `SubPhysicalUnitType` (11 values); default PlacementOffset. -/
theorem C18_SubPhysicalUnitType : SurvivesText writeSubPhysicalUnitType readSubPhysicalUnitType.run (fun _ => .cPlacementOffset) false :=
  survives writeSubPhysicalUnitType readSubPhysicalUnitType (by intro v; cases v <;> rfl) (by decide +kernel)

/-- **C18** for `TransmissionType` (4 values); default Anycast. -/
theorem C18_TransmissionType : SurvivesText writeTransmissionType readTransmissionType.run (fun _ => .cAnycast) false :=
  survives writeTransmissionType readTransmissionType (by intro v; cases v <;> rfl) (by decide +kernel)

/-- **C18**, missing text: the empty text gives the default without an error; for colour samples and colour spaces it
is treated as an unknown text: reported, output left alone. -/
theorem C18_empty :
    (∀ old, readPrimitiveType.run [] old = ⟨true, false, .cUndefined⟩) ∧
    (∀ old, readSpecial.run [] old = ⟨true, false, .cNone⟩) ∧
    (∀ old, readPhysicalUnit.run [] old = ⟨true, false, .cNone⟩) ∧
    (∀ old, readBeamType.run [] old = ⟨true, false, .cWash⟩) ∧
    (∀ old, readLampType.run [] old = ⟨true, false, .cDischange⟩) ∧
    (∀ old, readDmxSnap.run [] old = ⟨true, false, .cNo⟩) ∧
    (∀ old, readDmxMaster.run [] old = ⟨true, false, .cNone⟩) ∧
    (∀ old, readDmxRelationType.run [] old = ⟨true, false, .cOverride⟩) ∧
    (∀ old, readColorSample.run [] old = ⟨true, true, old⟩) ∧
    (∀ old, readColorSpace.run [] old = ⟨true, true, old⟩) ∧
    (∀ old, readInterpolationTo.run [] old = ⟨true, false, .cLinear⟩) ∧
    (∀ old, readSourceType.run [] old = ⟨true, false, .cNDI⟩) ∧
    (∀ old, readScaleHandlingType.run [] old = ⟨true, false, .cScaleKeepRatio⟩) ∧
    (∀ old, readLaserColorType.run [] old = ⟨true, false, .cRGB⟩) ∧
    (∀ old, readComponentType.run [] old = ⟨true, false, .cInput⟩) ∧
    (∀ old, readOrientation.run [] old = ⟨true, false, .cLeft⟩) ∧
    (∀ old, readFuseRating.run [] old = ⟨true, false, .cB⟩) ∧
    (∀ old, readStructureType.run [] old = ⟨true, false, .cCenterLineBased⟩) ∧
    (∀ old, readCrossSectionType.run [] old = ⟨true, false, .cTrussFramework⟩) ∧
    (∀ old, readSupportType.run [] old = ⟨true, false, .cRope⟩) ∧
    (∀ old, readSubPhysicalUnitType.run [] old = ⟨true, false, .cPlacementOffset⟩) ∧
    (∀ old, readTransmissionType.run [] old = ⟨true, false, .cAnycast⟩) := by
  refine ⟨fun _ => rfl, fun _ => rfl, fun _ => rfl, fun _ => rfl, fun _ => rfl, fun _ => rfl, fun _ => rfl, fun _ => rfl, fun _ => rfl, fun _ => rfl, fun _ => rfl, fun _ => rfl, fun _ => rfl, fun _ => rfl, fun _ => rfl, fun _ => rfl, fun _ => rfl, fun _ => rfl, fun _ => rfl, fun _ => rfl, fun _ => rfl, fun _ => rfl⟩

/-- Non-trivial instances: a text in another case, an unknown text. -/
example : readPhysicalUnit.run "wavelength".toList .cNone = ⟨true, false, .cWaveLength⟩ :=
  C18_PhysicalUnit.roundtrip _ _ _ (by unfold SameText; decide +kernel)
example : readColorSpace.run "rgb".toList .cProPhoto = ⟨true, true, .cProPhoto⟩ := by
  refine C18_ColorSpace.unknown _ _ (by decide) ?_
  intro v; unfold SameText; cases v <;> decide +kernel

/-- XmlFileHelper.cpp:1823-1839 `ConvertBool`; the result is assigned `false` first. -/
def writeBool (b : Bool) : List Char := if b then "true".toList else "false".toList
def readBool (s : List Char) : Bool × Bool :=
  if eqNoCase s "true".toList then (true, true) else if eqNoCase s "false".toList then (true, false) else (false, false)

/-- **C18** for booleans: round trip, and success exactly for the two texts. -/
theorem C18_bool (b : Bool) (s : List Char) :
    readBool (writeBool b) = (true, b) ∧
    ((readBool s).1 = true ↔ SameText s "true".toList ∨ SameText s "false".toList) := by
  refine ⟨by cases b <;> decide +kernel, ?_⟩
  rw [← sameText_iff, ← sameText_iff]
  unfold readBool
  cases eqNoCase s "true".toList <;> cases eqNoCase s "false".toList <;> simp

/-- XmlFileHelper.cpp:1780-1796 `ConvertEGdtfCanHaveChildren`. -/
def writeCanHaveChildren (b : Bool) : List Char := if b then "Yes".toList else "No".toList
def readCanHaveChildren : Reader Bool where
  table := [("Yes", true), ("No", false)]
  empty := some true
  unknown := some true
  reports := true

theorem C18_CanHaveChildren : SurvivesText writeCanHaveChildren readCanHaveChildren.run (fun _ => true) true :=
  survives writeCanHaveChildren readCanHaveChildren (by intro v; cases v <;> rfl) (by decide +kernel)

end Verif.Enum
