import Verif.Basic

/-!
# Model of channel sets and channel functions, `/repo/src/GDTFManager.cpp`

DMX values are `Uint64` (GDTFPrefix.h:17), written as natural numbers; where the C++ computation can wrap around,
the model has `% 2^64`. Names, physical values and wheel slots are carried along as a payload `ν`.
-/

namespace Verif.Chan

/-- `size_t(-1)`: the end value of a channel set whose end has not been set. -/
def unset : Nat := 18446744073709551615

/-- GDTFManager.h `GdtfDmxChannelSet`: payload (name …), `fDmxStart`, `fDmxEnd` and whether `fNextChannelSet` is set. -/
structure ChSet (ν : Type) where
  load : ν
  start : Nat
  stop : Nat
  linked : Bool
  deriving DecidableEq, Repr

variable {ν : Type}

/-- GDTFManager.cpp:6937-6941 `GetDmxEnd`; `fnEnd` is `GetEndAdress` of the channel function. -/
def ChSet.dmxEnd (fnEnd : Nat) (s : ChSet ν) : Nat :=
  if s.linked = false ∧ s.stop = unset then fnEnd else s.stop

/-- A channel set as it comes from the file (GDTFManager.cpp:6752-6762 constructor, 6848-6872 `OnReadFromNode`). -/
def freshSet (load : ν) (start : Nat) : ChSet ν := { load := load, start := start, stop := unset, linked := false }

/-- GDTFManager.cpp:6322-6338: the loop looking for a start value not used yet; the result is the value and
whether the loop ended because the maximum was reached (`hasDuplicate`). -/
def bump (starts : List Nat) (maxDmx cur : Nat) : Nat × Bool :=
  if h : cur < maxDmx then
    if cur ∈ starts then bump starts maxDmx (cur + 1) else (cur, false)
  else (cur, true)
termination_by maxDmx - cur

/-- GDTFManager.cpp:6341-6354: the backward loop making room for one more value; the second component is the
start of the first set afterwards (or `maxDmx` for no set), the `nextValue` of the set before. -/
def cascade (maxDmx : Nat) : List (ChSet ν) → List (ChSet ν) × Nat
  | [] => ([], maxDmx)
  | s :: t =>
    let (t', next) := cascade maxDmx t
    let start := if next ≤ s.start then next - 1 else s.start
    ({ s with start := start } :: t', start)

/-- GDTFManager.cpp:6309-6362: the start value of a further set of a virtual channel and the sets afterwards;
`none` = the set is not wanted. -/
def repair (maxDmx : Nat) (sets : List (ChSet ν)) (start : Nat) : Option (List (ChSet ν) × Nat) :=
  if maxDmx ≤ sets.length then none
  else
    let (cur, hasDuplicate) := bump (sets.map (·.start)) maxDmx start
    if hasDuplicate ∧ maxDmx ≤ cur then some ((cascade maxDmx sets).1, maxDmx)
    else some (sets, cur)

/-- GDTFManager.cpp:6364-6372 and 6783-6795 (`SetNextChannelSet`): a set whose start does not exceed that of the
last set is dropped, otherwise it is linked and appended. -/
def link (sets : List (ChSet ν)) (new : ChSet ν) : List (ChSet ν) :=
  match sets.getLast? with
  | none => [new]
  | some last => if new.start ≤ last.start then sets else sets.dropLast ++ [{ last with linked := true }, new]

/-- GDTFManager.cpp:6296-6375: one channel set node (of a set with valid start) read. -/
def readOne (isVirtual : Bool) (maxDmx : Nat) (sets : List (ChSet ν)) (x : ν × Nat) : List (ChSet ν) :=
  if isVirtual then
    match repair maxDmx sets x.2 with
    | none => sets
    | some (sets, start) => link sets (freshSet x.1 start)
  else link sets (freshSet x.1 x.2)

/-- GDTFManager.cpp:6377-6384: "Now calculate end values". -/
def setEnds : List (ChSet ν) → List (ChSet ν)
  | [] => []
  | [s] => [s]
  | s :: t :: r => { s with stop := (t.start + 18446744073709551615) % 18446744073709551616 } :: setEnds (t :: r)

/-- GDTFManager.cpp:6296-6384: the channel sets of a channel function after reading; the list has the payload and
the start value of every node with a valid `DMXFrom`. -/
def readSets (isVirtual : Bool) (maxDmx : Nat) (nodes : List (ν × Nat)) : List (ChSet ν) :=
  setEnds (nodes.foldl (readOne isVirtual maxDmx) [])

/-! ## Writing -/

/-- GDTFManager.cpp:6187 `std::sort` by start (insertion sort here; for sets with different starts the result
does not depend on the algorithm). -/
def insertSet (s : ChSet ν) : List (ChSet ν) → List (ChSet ν)
  | [] => [s]
  | t :: r => if s.start < t.start then s :: t :: r else t :: insertSet s r

def sortSets : List (ChSet ν) → List (ChSet ν)
  | [] => []
  | s :: t => insertSet s (sortSets t)

/-- GDTFManager.cpp:6196-6199, 6216-6219, 6234-6237: a new unnamed set. -/
def noFeature (unnamed : ν) (start stop : Nat) : ChSet ν := { load := unnamed, start := start, stop := stop, linked := false }

/-- GDTFManager.cpp:6206-6225: the gaps between the sets, `first` is the set before. -/
def fillGaps (unnamed : ν) (fnEnd : Nat) (first : ChSet ν) : List (ChSet ν) → List (ChSet ν)
  | [] => []
  | second :: r =>
    let diff := (second.start + 18446744073709551616 - first.dmxEnd fnEnd) % 18446744073709551616
    if 1 < diff then
      noFeature unnamed ((first.dmxEnd fnEnd + 1) % 18446744073709551616)
        ((second.start + 18446744073709551615) % 18446744073709551616) :: second :: fillGaps unnamed fnEnd second r
    else second :: fillGaps unnamed fnEnd second r

/-- GDTFManager.cpp:6181-6248: the channel sets printed, which are then the channel sets of the function. -/
def writeSets (unnamed : ν) (fnStart fnEnd : Nat) (sets : List (ChSet ν)) : List (ChSet ν) :=
  match sortSets sets with
  | [] => []
  | first :: rest =>
    let last := (first :: rest).getLast (by simp)
    (if fnStart < first.start then
      [noFeature unnamed fnStart ((first.start + 18446744073709551615) % 18446744073709551616)] else []) ++
    (first :: fillGaps unnamed fnEnd first rest) ++
    (if last.dmxEnd fnEnd < fnEnd then
      [noFeature unnamed ((last.dmxEnd fnEnd + 1) % 18446744073709551616) fnEnd] else [])

/-! ## Channel functions -/

/-- GDTFManager.cpp:6508-6520 `GetEndAdress`; `next` is the start of `fNextFunction`. (The first branch only
computes a value without returning it.) -/
def fnEndAddress (maxDmx start : Nat) (next : Option Nat) : Nat :=
  match next with
  | some n => if n ≤ start then maxDmx else n - 1
  | none => maxDmx

/-- GDTFManager.cpp:5880-5908: the start values of the functions of a logical channel after reading. -/
def readStarts : List Nat → List Nat
  | [] => []
  | _ :: t => 0 :: t

/-- The ranges reported for the functions with these starts; `after` is the start of the function linked after
the last one. -/
def fnRanges (maxDmx : Nat) (after : Option Nat) : List Nat → List (Nat × Nat)
  | [] => []
  | s :: t => (s, fnEndAddress maxDmx s (t.head?.or after)) :: fnRanges maxDmx after t

/-- GDTFManager.cpp:5574-5602: the ranges of the functions of every logical channel of a DMX channel; the last
function of a logical channel is linked with the first one of the next logical channel, if both have functions. -/
def channelRanges (maxDmx : Nat) : List (List Nat) → List (List (Nat × Nat))
  | [] => []
  | l :: r => fnRanges maxDmx (r.head?.bind (fun n => (readStarts n).head?)) (readStarts l) :: channelRanges maxDmx r

end Verif.Chan
