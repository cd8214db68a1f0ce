import Verif.Mvr.Table
import Verif.Gdtf.FileModel

/-!
# Model: the description of an MVR scene and the object that reads it

`WriteXml` and `ReadFromGeneralSceneDescription` of /repo/src/SceneDataExchange.cpp around the objects of `Verif/Mvr/Model.lean`: the
bytes of `GeneralSceneDescription.xml`, and what an object that has perhaps read other files before holds after reading such bytes.
`Verif/Pack/Model.lean` models how the bytes get into the package.

Texts are lists of characters below 256 that stand for the bytes of their UTF-8 form, as in `Verif/Xml/Model.lean`; conversions between
these and `TXString` (rapidxmlsupport/XMLFileNodeImpl.cpp:61-110) succeed for UTF-8 and end with an exception otherwise (`Verif.Gdtf.attrIn`).

Simplifications: all names, values and texts of a document are converted when it is read (the code converts those it asks for); the
classes of a scene (read, never written) and the links between objects (`Verif/Scene`) are left out.
-/

namespace Verif.Mvr

open Verif.Str Verif.Text Verif.Dmx
open Verif.Gdtf (charsOf bytesOf attrIn)

/-- SceneDataExchange.h:966-1029 `SceneDataExchange`: the members used here. -/
structure Exchange where
  provider : Text := []
  providerVersion : Text := []
  userData : List Obj := []
  layers : List Obj := []
  mapDefs : List Obj := []
  positions : List Obj := []
  symDefs : List Obj := []
  major : Nat := 0
  minor : Nat := 0

/-- The lists of an object as a tree. -/
def Exchange.content (e : Exchange) : Obj :=
  .mk "SceneDataExchange" []
    [e.userData, [.mk "Exchange.Scene" [] [e.layers, [.mk "Exchange.AUXData" [] [e.mapDefs, e.positions, e.symDefs]]]]]

/-- Prefix/CommonPrefix.h:254-255. -/
def majorVersion : Int := 1

/-- Prefix/CommonPrefix.h:254-255. -/
def minorVersion : Int := 6

/-- SceneDataExchange.cpp:3610-3613: the attributes of the root node (names: Prefix/CommonPrefix.h:67-70). -/
def Exchange.rootAttrs (e : Exchange) : List (Text × Text) :=
  [("verMajor".toList, intText majorVersion), ("verMinor".toList, intText minorVersion),
   ("provider".toList, e.provider), ("providerVersion".toList, e.providerVersion)]

/-- SceneDataExchange.cpp:3592-3690 `WriteXml`: the document. -/
def Exchange.doc (e : Exchange) : Xml :=
  match write classes e.content with
  | .elem n a t k => .elem n (e.rootAttrs ++ a) t k

/-- SceneDataExchange.cpp:3592-3690 `WriteXml`: the bytes. -/
def Exchange.describe (e : Exchange) : List Byte := bytesOf (Xml.writeXmlText e.doc)

mutual
/-- All texts of a document can be converted. -/
def converts : Xml → Bool
  | .elem n a t k => (attrIn n).isSome && a.all (fun p => (attrIn p.1).isSome && (attrIn p.2).isSome) && (attrIn t).isSome && convertsAll k

/-- Those of a list. -/
def convertsAll : List Xml → Bool
  | [] => true
  | x :: r => converts x && convertsAll r
end

/-- SceneDataExchange.cpp:3826-3918: what is read is put behind what is there. -/
def Exchange.append (e : Exchange) : Obj → Exchange
  | .mk _ _ [us, [.mk _ _ [ls, [.mk _ _ [ds, ps, ss]]]]] =>
    { e with userData := e.userData ++ us, layers := e.layers ++ ls, mapDefs := e.mapDefs ++ ds, positions := e.positions ++ ps,
             symDefs := e.symDefs ++ ss }
  | _ => e

/-- SceneDataExchange.cpp:3714-3788, 3792-4027, the end of `ReadFromFile`: `desc` is the content of `GeneralSceneDescription.xml`
(`none`: not in the package). The name of the root node is not looked at (`rootName`, 3815-3816, is never set). The result `none` is an
exception, or undefined behaviour of `atoi`. -/
def Exchange.read (F : Fl) (e : Exchange) (desc : Option (List Byte)) : Option Exchange :=
  match desc with
  | none => some e
  | some b =>
    match Xml.readBuffer (charsOf b) with
    | none => some e
    | some root =>
      if converts root = false then none
      else do
        let major ← atoi ((root.attr? "verMajor".toList).getD [])
        let minor ← atoi ((root.attr? "verMinor".toList).getD [])
        some ({ e with major := toUint 64 major, minor := toUint 64 minor }.append (Mvr.read classes F "SceneDataExchange" root))

/-- Implementation/CMediaRessourceVectorImpl.cpp:1533-1539 `GetMVRVersion`. -/
def Exchange.version (e : Exchange) : Int × Int := (toSint 32 e.major, toSint 32 e.minor)

end Verif.Mvr
