import Verif.Mvr.Table

/-!
# Model: saving a scene, with the pointers that are used without a check

`SceneDataMappingDefinitionObj` has a pointer to its source, null after construction (SceneDataExchange.cpp:726-732), set by reading only if the
node has a source (SceneDataExchange.cpp:845-854) and used without a check when writing (SceneDataExchange.cpp:814).
-/

namespace Verif.Mvr

mutual
/-- Writing the object uses a null pointer: SceneDataExchange.cpp:796-821 `OnPrintToFile` of a mapping definition, and `OnPrintToFile` of
everything it is in, SceneDataExchange.cpp:249-260. -/
def crashes (cs : List Class) : Obj → Bool
  | .mk cls _ ks => crashesSlots cs (row cs cls).slots ks

/-- The members of an object. -/
def crashesSlots (cs : List Class) (ss : List Slot) : List (List Obj) → Bool
  | [] => false
  | k :: ks =>
    match ss with
    | [] => false
    | s :: ss => (s.how == .needed && k.isEmpty) || crashesList cs k || crashesSlots cs ss ks

/-- The objects of one member; those that are left out are not looked at. -/
def crashesList (cs : List Class) : List Obj → Bool
  | [] => false
  | o :: os => (!skipped cs o && crashes cs o) || crashesList cs os
end

/-- SceneDataExchange.cpp:249-260 `PrintToFile`; `none` if a null pointer is used. -/
def save (cs : List Class) (o : Obj) : Option Xml := if crashes cs o then none else some (write cs o)

end Verif.Mvr
