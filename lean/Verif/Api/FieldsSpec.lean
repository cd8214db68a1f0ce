import Verif.Api.Fields
import Verif.Name.Props

/-!
# What setting and getting a field has to mean
-/

namespace Verif.Api

/-- The getter hands out, for each of its results, the value that was passed to the setter under the same
name. -/
def Returns (f : Field) (o : Inst) (args : String → Val) : Prop :=
  f.get o = .values (f.reads.map fun p => (p.1, args p.1))

/-- The setter succeeds from `o` with `args` and leads to `o'`. -/
def Sets (f : Field) (o : Inst) (args : String → Val) (o' : Inst) : Prop :=
  f.set o args = some o'

/-- Names that the setter cleans. -/
def cleanedNames : List (String × String) := [
  ("CGdtfColorSpaceImpl", "Name"), ("CGdtfConnectorImpl", "Name"), ("CGdtfDMXProfileImpl", "Name"),
  ("CGdtfFeatureImpl", "Name"), ("CGdtfGamutImpl", "Name"), ("CGdtfGeometryImpl", "Name"),
  ("CGdtfPhysicalEmitterImpl", "Name")]

/-- Names that the setter stores as they come. -/
def rawNames : List (String × String) := [
  ("CGdtfDmxSubChannelSetImpl", "Name"), ("CGdtfFilterImpl", "Name"), ("CGdtfLaserProtocolImpl", "Name"),
  ("CGdtfMacroImpl", "Name"), ("CGdtfModelImpl", "Name"), ("CGdtfWheelSlotImpl", "Name")]

/-- DMX offsets, a signed number in the interface. -/
def offsets : List (String × String) := [
  ("CGdtfDmxChannelImpl", "Coarse"), ("CGdtfDmxChannelImpl", "Fine"), ("CGdtfDmxChannelImpl", "Ultra"),
  ("CGdtfDmxChannelImpl", "Uber")]

/-- The colours of a colour space. -/
def primaries : List (String × String) := [
  ("CGdtfColorSpaceImpl", "Red"), ("CGdtfColorSpaceImpl", "Green"), ("CGdtfColorSpaceImpl", "Blue"),
  ("CGdtfColorSpaceImpl", "White")]

/-- Fields whose setter never sets them. -/
def broken : List (String × String) := [("CGdtfConnectorImpl", "Type"), ("CGdtfGeometryImpl", "Model")]

/-- The fixture number, which has a value that stands for "no number". -/
def numbers : List (String × String) := [("CSceneObjImpl", "FixtureIdNumeric")]

/-- The pairs of fields of one class of which the first changes the second: class, set, read. -/
def entangled : List (String × String × String) := [
  ("CGdtfColorSpaceImpl", "ColorSpace", "Blue"), ("CGdtfColorSpaceImpl", "ColorSpace", "Green"),
  ("CGdtfColorSpaceImpl", "ColorSpace", "Red"), ("CGdtfColorSpaceImpl", "ColorSpace", "White"),
  ("CGdtfConnectorImpl", "Type", "Name"),
  ("CGdtfDmxChannelFunctionImpl", "ModeMasterChannel", "ModeMasterFunction"),
  ("CGdtfDmxChannelFunctionImpl", "ModeMasterFunction", "ModeMasterChannel"),
  ("CGdtfSubPhysicalUnitImpl", "Type", "PhysicalUnit")]

/-- The name of a row. -/
def Field.id (f : Field) : String × String := (f.cls, f.field)

/-- An arbitrary object that is set and of the given kind. -/
def fresh (kind : String) : Inst := { isSet := true, kind := kind, mem := fun _ => .null }

/-- All arguments equal. -/
def only (v : Val) : String → Val := fun _ => v

end Verif.Api
