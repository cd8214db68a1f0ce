import Verif.Api.Model

/-!
# What a count getter and an indexed getter promise together
-/

namespace Verif.Api.Spec

/-- The pair enumerates a list: unless the object is not initialised, which both report, the count is
the length of one list, every index below the count gives the element of that list at the index, and
every other index is refused. -/
def Enumerates (count : Option Nat) (get : Nat → Out α) : Prop :=
  match count with
  | none => ∀ i, get i = .notInitialised
  | some n => ∃ l : List α, l.length = n ∧ (∀ i (h : i < l.length), get i = .value l[i]) ∧ ∀ i, n ≤ i → get i = .refused

/-- The names of the getters that break the promise. -/
def exceptions : List (String × String) := [
  ("CGdtfAttributeImpl", "GetSubPhysicalUnitAt"),
  ("CGdtfGamutImpl", "GetPointAt"),
  ("CGdtfGeometryImpl", "GetBreakAt"),
  ("CGdtfGeometryImpl", "GetLaserProtocolAt"),
  ("CGdtfGeometryImpl", "GetPinPatchAt"),
  ("CGdtfDmxModeImpl", "GetBreakAt"),
  ("CSceneObjImpl", "GetProtocolAt"),
  ("CSceneObjImpl", "GetAdressAt"),
  ("CMVRxchangeServiceImpl", "GetLocalServiceAt") ]

/-- The getters that rely on two arrays of the same length. -/
def paired : List (String × String) := [
  ("CSceneDataProviderImpl", "GetValueAt"),
  ("CMediaRessourceVectorImpl", "GetAttachedFileCountAt") ]

end Verif.Api.Spec
