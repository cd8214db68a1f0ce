import Verif.Lookup.Model

/-!
# Model: attribute checking of XML nodes, and conflicts of channel functions
-/

namespace Verif.Check

open Verif.Lookup

/-- `unordered_set::erase(key)`: the remaining elements, and whether an element was removed. -/
def erase (T : Table Unit) (l : List (Txt × Unit)) (k : Txt) : List (Txt × Unit) × Bool :=
  (l.filter (fun e => !(T.bucket l.length e.1 == T.bucket l.length k && eqNoCase e.1 k)), (T.find l k).isSome)

/-- The two kinds of errors, with the name of the attribute as message. -/
inductive NodeError where
  | missing (name : Txt)
  | wrong (name : Txt)
deriving DecidableEq, Repr

/-- GdtfError.cpp:77: the set of the attributes of the node. -/
def attrSet (T : Table Unit) (raw : List Txt) : List (Txt × Unit) := raw.foldl (fun s a => T.emplace s a ()) []

/-- GdtfError.cpp:80-88: the loop over the mandatory attributes. -/
def checkNeeded (T : Table Unit) : List (Txt × Unit) → List Txt → List (Txt × Unit) × List NodeError
  | s, [] => (s, [])
  | s, a :: rest =>
    let r := erase T s a
    let q := checkNeeded T r.1 rest
    (q.1, (if r.2 then [] else [.missing a]) ++ q.2)

/-- `GdtfParsingError::CheckNodeAttributes`, GdtfError.cpp:72-107: the errors in the order they are added. -/
def checkNodeAttributes (T : Table Unit) (raw needed optional : List Txt) : List NodeError :=
  let q := checkNeeded T (attrSet T raw) needed
  let s := optional.foldl (fun s a => (erase T s a).1) q.1
  q.2 ++ (raw.filter (fun a => (T.find s a).isSome)).map .wrong

/-- A channel function as `CheckForMissingModeMasters` sees it: its DMX range and its mode master with range. Masters are
identified by numbers. -/
structure MFn where
  first : Nat
  last : Nat
  mmChannel : Option Nat
  mmFunction : Option Nat
  mmFirst : Nat
  mmLast : Nat
deriving DecidableEq, Repr

/-- The two errors of the check. -/
inductive MmError where
  | missingMaster
  | masterOverlap
deriving DecidableEq, Repr

/-- GDTFManager.cpp:9326: the DMX ranges overlap. -/
def dmxOverlap (f g : MFn) : Bool := decide (f.first ≤ g.last ∧ g.first ≤ f.last)

/-- GDTFManager.cpp:9330-9362: the check for two functions with overlapping ranges. -/
def checkPair (f g : MFn) : Option MmError :=
  if f.mmChannel.isNone && f.mmFunction.isNone then some .missingMaster
  else if (f.mmChannel.isSome && decide (f.mmChannel = g.mmChannel)) || (f.mmFunction.isSome && decide (f.mmFunction = g.mmFunction)) then
    if f.mmFirst ≤ g.mmLast ∧ g.mmFirst ≤ f.mmLast then some .masterOverlap else none
  else none

/-- GDTFManager.cpp:9318-9366: the inner loop, which ends with the first function whose range overlaps. -/
def checkInner (f : MFn) : List MFn → Option MmError
  | [] => none
  | g :: rest => if dmxOverlap f g then checkPair f g else checkInner f rest

/-- `CheckForMissingModeMasters`, GDTFManager.cpp:9297-9371, for one logical channel. -/
def checkMasters : List MFn → List MmError
  | [] => []
  | f :: rest => (checkInner f rest).toList ++ checkMasters rest

end Verif.Check
