import Verif.Mvr.Model
import Verif.Xml.Spec

/-!
# Specification: trees of MVR objects that a program can build, and what must be left of them after reading
-/

namespace Verif.Mvr.Spec

open Verif.Real

/-- Two numbers agree up to half a unit of the sixth decimal (and the precision of a `double`). -/
def Near (x y : Dbl) : Prop := |signed x - signed y| ≤ 1 / 2000000 + (x.mag + 1) / 2 ^ 53

/-- Two points do. -/
def NearV (a b : V3) : Prop := Near a.x b.x ∧ Near a.y b.y ∧ Near a.z b.z

/-- Values that agree: texts, numbers without decimals, flags, choices and UUIDs are equal, other numbers are near. -/
def Close : Val → Val → Prop
  | .real x, .real y => Near x y
  | .vec a, .vec b => NearV a b
  | .color a, .color b => NearV a b
  | .matrix m, .matrix n => NearV m.u n.u ∧ NearV m.v n.v ∧ NearV m.w n.w ∧ NearV m.o n.o
  | .command fn p x, .command gn q y => fn = gn ∧ p = q ∧ Near x y
  | v, w => v = w

/-- All values of two objects. -/
def CloseAll : List Val → List Val → Prop
  | [], [] => True
  | v :: vs, w :: ws => Close v w ∧ CloseAll vs ws
  | _, _ => False

mutual
/-- The same object: same class, values that agree, the same objects in every member. -/
def Same : Obj → Obj → Prop
  | .mk c vs ks, .mk d ws ls => c = d ∧ CloseAll vs ws ∧ SameAll ks ls

/-- All members. -/
def SameAll : List (List Obj) → List (List Obj) → Prop
  | [], [] => True
  | k :: ks, l :: ls => SameList k l ∧ SameAll ks ls
  | _, _ => False

/-- One member. -/
def SameList : List Obj → List Obj → Prop
  | [], [] => True
  | o :: os, p :: ps => Same o p ∧ SameList os ps
  | _, _ => False
end

/-- A group that contains nothing. -/
def EmptyGroup : Obj → Prop
  | .mk c _ ks => c = "SceneDataGroupObj" ∧ ks.getLast? = some []

instance (o : Obj) : Decidable (EmptyGroup o) := by
  cases o with
  | mk c v ks =>
    unfold EmptyGroup
    have : Decidable (ks.getLast? = some []) := by
      cases h : ks.getLast? with
      | none => exact isFalse (by simp)
      | some k =>
        cases k with
        | nil => exact isTrue rfl
        | cons _ _ => exact isFalse (by simp)
    infer_instance

mutual
/-- The tree without empty groups. -/
def prune : Obj → Obj
  | .mk c vs ks => .mk c vs (pruneAll ks)

/-- All members. -/
def pruneAll : List (List Obj) → List (List Obj)
  | [] => []
  | k :: ks => pruneList k :: pruneAll ks

/-- One member. -/
def pruneList : List Obj → List Obj
  | [] => []
  | o :: os => if EmptyGroup o then pruneList os else prune o :: pruneList os
end

/-- The types of values. -/
inductive Ty where
  | text
  | uuid
  /-- An integer, with the bounds of its type. -/
  | int (least most : Int)
  | flag
  | number
  | point
  | color
  | matrix
  | source
  | scale
  | transmission
  | command
  deriving DecidableEq, Repr

/-- `Sint8`. -/
def sint8 : Ty := .int (-128) 127

/-- `Sint32`. -/
def sint32 : Ty := .int (-2147483648) 2147483647

/-- `Uint32` and `size_t`.  Missing: the upper half of `Uint32`, and everything of a `size_t` from there on. -/
def unsigned : Ty := .int 0 2147483647

/-- A value of the type.  Missing: channel functions that contain the separators of the text of a custom command. -/
def Holds : Ty → Val → Prop
  | .text, .text _ => True
  | .uuid, .uuid u => u.length = 16
  | .int lo hi, .int i => lo ≤ i ∧ i ≤ hi
  | .flag, .flag _ => True
  | .number, .real x => 0 ≤ x.mag
  | .point, .vec v => 0 ≤ v.x.mag ∧ 0 ≤ v.y.mag ∧ 0 ≤ v.z.mag
  | .color, .color v => 0 ≤ v.x.mag ∧ 0 ≤ v.y.mag ∧ 0 ≤ v.z.mag
  | .matrix, .matrix m => (0 ≤ m.u.x.mag ∧ 0 ≤ m.u.y.mag ∧ 0 ≤ m.u.z.mag) ∧ (0 ≤ m.v.x.mag ∧ 0 ≤ m.v.y.mag ∧ 0 ≤ m.v.z.mag) ∧
      (0 ≤ m.w.x.mag ∧ 0 ≤ m.w.y.mag ∧ 0 ≤ m.w.z.mag) ∧ 0 ≤ m.o.x.mag ∧ 0 ≤ m.o.y.mag ∧ 0 ≤ m.o.z.mag
  | .source, .source _ => True
  | .scale, .scale _ => True
  | .transmission, .transmission _ => True
  | .command, .command fn p x => ¬ "/percent".toList <:+: fn ∧ (p = false → ',' ∉ fn) ∧ 0 ≤ x.mag
  | _, _ => False

/-- A value of an object. -/
structure Value where
  member : String
  ty : Ty
  /-- The file has it between the tags of a node, not in an attribute. -/
  between : Bool := false
  deriving DecidableEq, Repr

/-- Objects in an object. -/
structure Member where
  member : String
  /-- Their classes. -/
  classes : List String
  least : Nat
  most : Option Nat
  deriving DecidableEq, Repr

/-- A kind of objects. -/
structure Kind where
  cls : String
  values : List Value
  members : List Member
  deriving DecidableEq, Repr

/-- All values of an object. -/
def HoldsAll : List Value → List Val → Prop
  | [], [] => True
  | f :: fs, v :: vs => Holds f.ty v ∧ HoldsAll fs vs
  | _, _ => False

/-- The objects in a member are allowed: right classes, right number. -/
def Contents (s : Member) (k : List Obj) : Prop :=
  (∀ o ∈ k, o.cls ∈ s.classes) ∧ s.least ≤ k.length ∧ ∀ n, s.most = some n → k.length ≤ n

/-- Any number of objects of some classes. -/
def many (member : String) (classes : List String) : Member := ⟨member, classes, 0, none⟩

/-- One object or none. -/
def atMostOne (member : String) (cls : String) : Member := ⟨member, [cls], 0, some 1⟩

/-- One object. -/
def exactlyOne (member : String) (cls : String) : Member := ⟨member, [cls], 1, some 1⟩

/-- A value for which the file has a node of its own. -/
def single (member : String) (ty : Ty) : Kind := ⟨member, [⟨member, ty, true⟩], []⟩

/-- What can be placed in a layer or a group. -/
def placed : List String :=
  ["SceneDataFixtureObj", "SceneDataSceneryObj", "SceneDataFocusPointObj", "SceneDataTrussObj", "SceneDataVideoScreenObj",
   "SceneDataSupportObj", "SceneDataProjectorObj", "SceneDataGroupObj"]

/-- What every object with a position has (SceneDataExchange.h:524-547). -/
def withMatrix : List Member :=
  [exactlyOne "fMatrix" "fMatrix",
   many "fGeometries" ["SceneDataGeometryObj", "SceneDataSymbolObj"],
   many "fCustomCommands" ["SceneDataCustomCommand"],
   many "fAlignments" ["SceneDataAlignment"],
   many "fOverwrites" ["SceneDataOverwrite"],
   atMostOne "fClass" "fClass",
   many "fConnections" ["SceneDataConnectionObj"]]

/-- What every object has that can contain others (SceneDataExchange.h:586-593). -/
def withChildren : List Member := withMatrix ++ [many "fChildObjs" placed]

/-- What every object has that can have a GDTF file (SceneDataExchange.h:627-647). -/
def withSpec : List Member := withChildren ++ [exactlyOne "fGdtfFile" "fGdtfFile", exactlyOne "fGdtfDmxMode" "fGdtfDmxMode"]

/-- A UUID and a name. -/
def named : List Value := [⟨"fGuid", .uuid, false⟩, ⟨"fName", .text, false⟩]

/-- The kinds of objects in a scene, with the types of their members (SceneDataExchange.h). -/
def kinds : List Kind :=
  [-- SceneDataExchange.h:533, 537-538, 646-647
   single "fMatrix" .matrix, single "fClass" .text, single "fGdtfFile" .text, single "fGdtfDmxMode" .text,
   -- SceneDataExchange.h:761-777
   single "fFocusPoint" .text, single "fPosition" .text, single "fFixtureId" .text, single "fFixtureIdNumeric" unsigned,
   single "fUnitNumber" sint32, single "fFixtureTypeId" sint8, single "fCustomId" unsigned, single "fColor" .color,
   ⟨"fGobo", [⟨"fGobo", .text, true⟩, ⟨"fGoboRotation", .number, false⟩], []⟩,
   single "fFunction" .text, single "fCastShadow" .flag, single "fDMXInvertPan" .flag, single "fDMXInvertTilt" .flag,
   -- SceneDataExchange.h:724-725
   ⟨"SceneDataDmxAdress", [⟨"fBreak", unsigned, false⟩, ⟨"fAbsuluteAdress", unsigned, true⟩], []⟩,
   -- SceneDataExchange.h:735-739
   ⟨"SceneDataProtocols", [⟨"fGeometry", .text, false⟩, ⟨"fName", .text, false⟩, ⟨"fType", .text, false⟩, ⟨"fVersion", .text, false⟩,
     ⟨"fTransmision", .transmission, false⟩], []⟩,
   -- SceneDataExchange.h:266-276
   ⟨"SceneDataSourceObj", [⟨"fName", .text, false⟩, ⟨"fLinkedGeometry", .text, false⟩, ⟨"fType", .source, false⟩, ⟨"fValue", .text, true⟩], []⟩,
   -- SceneDataExchange.h:338-353
   single "fUx" unsigned, single "fUy" unsigned, single "fOx" unsigned, single "fOy" unsigned, single "fRz" .number,
   ⟨"SceneDataMappingObj", [⟨"fName", .text, false⟩, ⟨"fLinkedDefUuid", .uuid, false⟩],
     [exactlyOne "fUx" "fUx", exactlyOne "fUy" "fUy", exactlyOne "fOx" "fOx", exactlyOne "fOy" "fOy", exactlyOne "fRz" "fRz"]⟩,
   -- SceneDataExchange.h:301-313
   single "fSizeX" unsigned, single "fSizeY" unsigned, single "fScaleHandling" .scale,
   ⟨"SceneDataMappingDefinitionObj", named, [exactlyOne "fSizeX" "fSizeX", exactlyOne "fSizeY" "fSizeY",
     exactlyOne "fSource" "SceneDataSourceObj", exactlyOne "fScaleHandling" "fScaleHandling"]⟩,
   -- SceneDataExchange.h:484-497
   ⟨"SceneDataConnectionObj", [⟨"fName", .text, false⟩, ⟨"fOwn", .text, false⟩, ⟨"fOther", .text, false⟩, ⟨"fToObject", .uuid, false⟩], []⟩,
   -- SceneDataExchange.h:382-394
   ⟨"SceneDataCustomCommand", [⟨"fName", .text, false⟩, ⟨"fChannelFunction, fIsPercentage, fValue", .command, true⟩], []⟩,
   -- SceneDataExchange.h:417-429
   ⟨"SceneDataAlignment", [⟨"fName", .text, false⟩, ⟨"fBeamGeometry", .text, false⟩, ⟨"fUpVector", .point, false⟩, ⟨"fDirection", .point, false⟩], []⟩,
   -- SceneDataExchange.h:452-463
   ⟨"SceneDataOverwrite", [⟨"fName", .text, false⟩, ⟨"fUniversal", .text, false⟩, ⟨"fTarget", .text, false⟩], []⟩,
   -- SceneDataExchange.h:654-661
   ⟨"SceneDataGeometryObj", [⟨"fName", .text, false⟩, ⟨"fFileName", .text, false⟩], withMatrix⟩,
   -- SceneDataExchange.h:942-951
   ⟨"SceneDataSymbolObj", named ++ [⟨"fSymDef", .text, false⟩], withMatrix⟩,
   -- SceneDataExchange.h:199-207
   ⟨"SceneDataSymDefObj", named, [many "fGeometries" ["SceneDataGeometryObj", "SceneDataSymbolObj"]]⟩,
   -- SceneDataExchange.h:228
   ⟨"SceneDataPositionObj", named, []⟩,
   -- SceneDataExchange.h:586-593, 683, 702, 841, 856, 871
   ⟨"SceneDataGroupObj", named, withChildren⟩, ⟨"SceneDataLayerObj", named, withChildren⟩, ⟨"SceneDataFocusPointObj", named, withChildren⟩,
   ⟨"SceneDataSceneryObj", named, withSpec⟩, ⟨"SceneDataTrussObj", named, withSpec⟩, ⟨"SceneDataSupportObj", named, withSpec⟩,
   -- SceneDataExchange.h:751-777
   ⟨"SceneDataFixtureObj", named, withSpec ++
     [atMostOne "fFocusPoint" "fFocusPoint", atMostOne "fPosition" "fPosition", many "fAdresses" ["SceneDataDmxAdress"],
      exactlyOne "fFixtureId" "fFixtureId", exactlyOne "fFixtureIdNumeric" "fFixtureIdNumeric", exactlyOne "fUnitNumber" "fUnitNumber",
      exactlyOne "fFixtureTypeId" "fFixtureTypeId", exactlyOne "fCustomId" "fCustomId", exactlyOne "fColor" "fColor",
      exactlyOne "fGobo" "fGobo", exactlyOne "fFunction" "fFunction", exactlyOne "fCastShadow" "fCastShadow",
      many "fMappings" ["SceneDataMappingObj"], exactlyOne "fDMXInvertPan" "fDMXInvertPan", exactlyOne "fDMXInvertTilt" "fDMXInvertTilt",
      many "fProtocols" ["SceneDataProtocols"]]⟩,
   -- SceneDataExchange.h:888-896
   ⟨"SceneDataVideoScreenObj", named, withSpec ++ [atMostOne "fSource" "SceneDataSourceObj"]⟩,
   -- SceneDataExchange.h:913-922
   single "Projector.fScaleHandling" .scale,
   ⟨"Projector.Projection", [], [atMostOne "fSource" "SceneDataSourceObj", exactlyOne "Projector.fScaleHandling" "Projector.fScaleHandling"]⟩,
   ⟨"SceneDataProjectorObj", named, withSpec ++ [exactlyOne "Projection" "Projector.Projection"]⟩,
   -- SceneDataExchange.h:141-156
   ⟨"Provider.Entry", [⟨"fKeyArr", .text, false⟩, ⟨"fDataArr", .text, true⟩], []⟩,
   ⟨"SceneDataProviderObj", [⟨"fProvider", .text, false⟩, ⟨"fVersion", .text, false⟩], [many "fKeyArr, fDataArr" ["Provider.Entry"]]⟩,
   -- SceneDataExchange.h:969-987
   ⟨"Exchange.AUXData", [], [many "fMappingDefinitionObjs" ["SceneDataMappingDefinitionObj"], many "fPositions" ["SceneDataPositionObj"],
     many "fSymDefObjs" ["SceneDataSymDefObj"]]⟩,
   ⟨"Exchange.Scene", [], [many "fChildObjs" ["SceneDataLayerObj"], exactlyOne "AUXData" "Exchange.AUXData"]⟩,
   ⟨"SceneDataExchange", [], [many "fProviderObjs" ["SceneDataProviderObj"], exactlyOne "Scene" "Exchange.Scene"]⟩]

/-- A tree of objects in which every member has allowed contents, and a fixture without a gobo has no gobo rotation. -/
inductive Build : Obj → Prop
  | mk (c : Kind) (vs : List Val) (ks : List (List Obj)) (hc : c ∈ kinds) (hv : HoldsAll c.values vs)
      (hg : c.cls = "fGobo" → vs.head? = some (.text []) → vs = [.text [], .real zero])
      (hn : ks.length = c.members.length)
      (hf : ∀ p ∈ c.members.zip ks, Contents p.1 p.2) (hk : ∀ k ∈ ks, ∀ o ∈ k, Build o) : Build (.mk c.cls vs ks)

/-- Texts without carriage returns and null characters; between tags, no text of white space only. -/
def Tidy (between : Bool) : Val → Prop
  | .text t => Xml.Spec.Clean t ∧ (between = true → t = [] ∨ ¬ Xml.Spec.Blank t)
  | .command fn _ _ => Xml.Spec.Clean fn
  | _ => True

/-- All values of an object. -/
def TidyVals : List Value → List Val → Prop
  | f :: fs, v :: vs => Tidy f.between v ∧ TidyVals fs vs
  | _, _ => True

mutual
/-- All texts of the tree are. -/
def TidyTree : Obj → Prop
  | .mk c vs ks => (∀ k ∈ kinds, k.cls = c → TidyVals k.values vs) ∧ TidyKids ks

/-- All members. -/
def TidyKids : List (List Obj) → Prop
  | [] => True
  | k :: ks => TidyList k ∧ TidyKids ks

/-- One member. -/
def TidyList : List Obj → Prop
  | [] => True
  | o :: os => TidyTree o ∧ TidyList os
end

end Verif.Mvr.Spec
