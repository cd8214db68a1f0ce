import Verif.Gdtf.SaveSpec
import Verif.Mvr.StableSpec

/-!
# Specification: GDTF descriptions that are saved as the same text again
-/

namespace Verif.Gdtf.Spec

open Verif.Real
open Verif.Mvr.Spec (Moderate ModerateV millionths)

/-- The numbers of a value are at most 2^32, the range in which a `double` has six decimals. -/
def ModerateVal : Val → Prop
  | .real x => Moderate x
  | .matrix m => ModerateV m.u ∧ ModerateV m.v ∧ ModerateV m.w ∧ ModerateV m.o
  | .rotation m => ModerateV m.u ∧ ModerateV m.v ∧ ModerateV m.w
  | .color c => ModerateV c
  | .colors cs => ∀ c ∈ cs, ModerateV c
  | .point x y => Moderate x ∧ Moderate y
  | .vec v => ModerateV v
  | _ => True

/-- The numbers that are written are not too large, no duration of a wheel slot is shown as zero unless it is zero, and the name of the fixture has no
slash. -/
structure Steady (o : Obj Members) : Prop where
  numbers : ∀ p cls d, classAt o p = some cls → dataAt o p = some d → ∀ i, Writes cls i → ModerateVal (d i.field)
  durations : ∀ p d x, classAt o p = some "GdtfWheelSlot" → dataAt o p = some d → d "fDuration" = .real x → millionths x = 0 → x.mag = 0
  names : ∀ p d, classAt o p = some "GdtfFixture" → dataAt o p = some d → NoSlash d

/-- Two descriptions have the same references: resolving has found what was saved. -/
def LinksKept (o o' : Obj Members) : Prop :=
  ∀ p cls d d', classAt o p = some cls → dataAt o p = some d → dataAt o' p = some d' → ∀ f, Later cls f → d' f = d f

end Verif.Gdtf.Spec
