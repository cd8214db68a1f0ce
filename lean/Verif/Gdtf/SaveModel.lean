import Verif.Gdtf.CtorModel

/-!
# Model: the objects that are members of other objects, behind the constructors
-/

namespace Verif.Gdtf

/-- An object behind its constructor: the members of `ctor`, empty arrays, null pointers, and the objects that are members (GDTFManager.h:2818, 2834;
GDTFManager.cpp:9374-9383, 11065-11074, 12340-12346), down to a depth. -/
def madeTo (m : Memory) : Nat → String → Obj Members
  | 0, cls => .mk cls (ctor m cls) []
  | n + 1, cls => .mk cls (ctor m cls) ((((classes.find? (fun c => c.name == cls)).map (·.slots)).getD []).map
      fun s => if s.how = .embedded then s.holds.map (madeTo m n) else [])

/-- The depth is at most three: the physical descriptions, the properties in them, the weight in these. -/
def madeObj (m : Memory) : String → Obj Members := madeTo m 4

end Verif.Gdtf
