import Verif.Basic

/-!
# Model of the geometry tree, the break list and the footprint of a DMX mode, `/repo/src/GDTFManager.cpp`

Geometry objects have an identity `id` (the address of the C++ object); pointers to geometries are identities, and a
heap `Nat → Option Geo` gives the object. Cycles through references are therefore possible. `CheckAbort` (the user's
cancel button) is left out here; see `AskModel`.
-/

namespace Verif.Geo

/-- GDTFManager.h:1424-1447 `GdtfBreak`: `fDmxBreak` and `fDmxAdress` (Uint16). -/
structure Brk where
  brk : Int
  address : Nat
  deriving DecidableEq, Repr

/-- GDTFManager.h:1450-1478 `GdtfGeometryReference`: `fLinkedGeometry` (`none` = null) and `fBreaks`. -/
structure Ref where
  linked : Option Nat
  breaks : List Brk
  deriving DecidableEq, Repr

/-- GDTFManager.h `GdtfGeometry`: identity, the reference part for `eGdtfGeometryReference` objects, and
`GetInternalGeometries`. -/
inductive Geo where
  | node (id : Nat) (ref : Option Ref) (kids : List Geo)

def Geo.id : Geo → Nat
  | .node i _ _ => i

def Geo.ref : Geo → Option Ref
  | .node _ r _ => r

def Geo.kids : Geo → List Geo
  | .node _ _ k => k

mutual
/-- Number of objects in a tree. -/
def Geo.size : Geo → Nat
  | .node _ _ kids => sizes kids + 1

def sizes : List Geo → Nat
  | [] => 0
  | g :: t => g.size + sizes t
end

/-- GDTFManager.h:1770-1830 `GdtfDmxChannel`: `fGeomRef`, `fDmxBreak` (0 = overwrite) and the four addresses, 0 if not
used (Uint16). -/
structure Chan where
  geom : Option Nat
  brk : Int
  coarse : Nat
  fine : Nat
  ultra : Nat
  uber : Nat
  deriving DecidableEq, Repr

/-- GDTFManager.cpp:5740-5748 `GetChannelBitResolution` (1 … 4 bytes). -/
def Chan.resolution (c : Chan) : Nat :=
  if c.coarse = 0 then 2 else if c.fine = 0 then 1 else if c.ultra = 0 then 2 else if c.uber = 0 then 3 else 4

/-- GDTFManager.cpp:5755-5759 `IsVirtual`. -/
def Chan.isVirtual (c : Chan) : Bool := c.coarse = 0 ∧ c.fine = 0 ∧ c.ultra = 0 ∧ c.uber = 0

/-- GDTFManager.cpp:5425-5433 `GetAddressesFromChannel`; the address type is `Uint16`. -/
def Chan.addresses (c : Chan) (offset : Nat) : List Nat :=
  (if 1 ≤ c.resolution then [(c.coarse + offset) % 65536] else []) ++
  (if 2 ≤ c.resolution then [(c.fine + offset) % 65536] else []) ++
  (if 3 ≤ c.resolution then [(c.ultra + offset) % 65536] else []) ++
  (if 4 ≤ c.resolution then [(c.uber + offset) % 65536] else [])

theorem sizes_append (a b : List Geo) : sizes (a ++ b) = sizes a + sizes b := by
  induction a with
  | nil => rw [List.nil_append, sizes]; omega
  | cons g t ih => rw [List.cons_append, sizes, sizes, ih]; omega

theorem sizes_reverse (a : List Geo) : sizes a.reverse = sizes a := by
  induction a with
  | nil => rfl
  | cons g t ih => rw [List.reverse_cons, sizes_append, sizes, sizes, sizes, ih]; omega

theorem size_eq (g : Geo) : g.size = sizes g.kids + 1 := by
  cases g; rw [Geo.size]; rfl

/-- The loops GDTFManager.cpp:5289-5296, 5320-5326, 5358-5364, 5385-5391: pop the last object, push its children; the
objects in the order they are visited. The head of the list is the end of the C++ vector. -/
def walk : List Geo → List Geo
  | [] => []
  | g :: st => g :: walk (g.kids.reverse ++ st)
termination_by st => sizes st
decreasing_by
  rw [sizes_append, sizes_reverse, sizes, size_eq]; omega

/-- All objects of the tree below a pointer that may be null. -/
def treeOf : Option Geo → List Geo
  | none => []
  | some g => walk [g]

/-- `std::sort` on numbers after the duplicates have been left out. -/
def insertSorted (x : Int) : List Int → List Int
  | [] => [x]
  | y :: t => if x < y then x :: y :: t else y :: insertSorted x t

def sortInts : List Int → List Int
  | [] => []
  | x :: t => insertSorted x (sortInts t)

/-- `if(std::find(…) == end) push_back`. -/
def pushNew (l : List Int) (x : Int) : List Int := if x ∈ l then l else l ++ [x]

/-! ## GetBreakArray -/

/-- GDTFManager.cpp:5201-5229: the loop collecting the geometry references; the stack holds pointers that may be null,
`none` = not finished within the number of steps. -/
def collectRefs (heap : Nat → Option Geo) : Nat → List (Option Geo) → List Ref → Option (List Ref)
  | _, [], acc => some acc
  | 0, _ :: _, _ => none
  | fuel + 1, none :: st, acc => collectRefs heap fuel st acc
  | fuel + 1, some g :: st, acc =>
    match g.ref with
    | none => collectRefs heap fuel (g.kids.reverse.map some ++ st) acc
    | some r => collectRefs heap fuel (r.linked.bind heap :: (g.kids.reverse.map some ++ st)) (acc ++ [r])

/-- GDTFManager.cpp:5238-5251: one overwrite channel against the references; `.error ()` = `back()` of an empty
vector. -/
def overwriteBreaks (c : Chan) : List Ref → List Int → Except Unit (List Int)
  | [], acc => .ok acc
  | r :: t, acc =>
    if r.linked = c.geom then
      match r.breaks.getLast? with
      | none => .error ()
      | some b => overwriteBreaks c t (pushNew acc b.brk)
    else overwriteBreaks c t acc

/-- GDTFManager.cpp:5231-5259: the loop over the channels. -/
def channelBreaks (refs : List Ref) : List Chan → List Int → Except Unit (List Int)
  | [], acc => .ok acc
  | c :: t, acc =>
    if c.brk = 0 then
      match overwriteBreaks c refs acc with
      | .error e => .error e
      | .ok acc => channelBreaks refs t acc
    else channelBreaks refs t (pushNew acc c.brk)

/-- GDTFManager.cpp:5186-5266 `GetBreakArray`; `root` is `fGeomRef`. -/
def breakArray (heap : Nat → Option Geo) (fuel : Nat) (root : Option Geo) (chans : List Chan) :
    Option (Except Unit (List Int)) :=
  match collectRefs heap fuel (root.toList.map some) [] with
  | none => none
  | some refs =>
    match channelBreaks refs chans [] with
    | .error e => some (.error e)
    | .ok l => some (.ok (sortInts l))

/-! ## GetFootPrintForBreak -/

/-- GDTFManager.cpp:5298-5306, 5366-5375, 5393-5400: the addresses of the channels of one geometry with the break. -/
def geoAddresses (chans : List Chan) (b : Int) (offset : Nat) (g : Geo) : List Nat :=
  chans.flatMap (fun c => if c.geom = some g.id ∧ c.brk = b ∧ c.isVirtual = false then c.addresses offset else [])

/-- GDTFManager.cpp:5318-5346, 5349: the breaks used in a referenced tree, sorted. -/
def refBreaks (chans : List Chan) (tree : List Geo) : List Int :=
  sortInts (tree.foldl (fun acc g =>
    chans.foldl (fun acc c => if c.geom = some g.id ∧ c.brk ≠ 0 then pushNew acc c.brk else acc) acc) [])

/-- GDTFManager.cpp:5340-5343: whether a channel of the referenced tree overwrites the break. -/
def hasOverwrite (chans : List Chan) (tree : List Geo) : Bool :=
  tree.any (fun g => chans.any (fun c => c.geom = some g.id ∧ c.brk = 0))

/-- GDTFManager.cpp:5349-5377: the addresses of channels with their own break; the break of the reference is taken by
position. -/
def directAddresses (chans : List Chan) (b : Int) (r : Ref) (tree : List Geo) : Except Unit (List Nat) :=
  if b ∈ refBreaks chans tree then
    match r.breaks[(refBreaks chans tree).idxOf b]? with
    | none => .error ()
    | some br => .ok (tree.flatMap (geoAddresses chans b ((br.address + 65535) % 65536)))
  else .ok []

/-- GDTFManager.cpp:5308-5406: the addresses through a geometry reference; `.error ()` = access beyond the breaks of the
reference. -/
def refAddresses (heap : Nat → Option Geo) (chans : List Chan) (b : Int) (r : Ref) : Except Unit (List Nat) :=
  let tree := treeOf (r.linked.bind heap)
  match directAddresses chans b r tree with
  | .error e => .error e
  | .ok direct =>
    if hasOverwrite chans tree then
      match r.breaks.getLast? with
      | none => .error ()
      | some br =>
        if br.brk = b then .ok (direct ++ tree.flatMap (geoAddresses chans 0 ((br.address + 65535) % 65536)))
        else .ok direct
    else .ok direct

/-- GDTFManager.cpp:5308: only geometry references have such addresses. -/
def linkedAddresses (heap : Nat → Option Geo) (chans : List Chan) (b : Int) : Option Ref → Except Unit (List Nat)
  | none => .ok []
  | some r => refAddresses heap chans b r

/-- GDTFManager.cpp:5289-5417: all addresses (the duplicates stay in the model; they do not matter for what follows). -/
def allAddresses (heap : Nat → Option Geo) (chans : List Chan) (b : Int) : List Geo → Except Unit (List Nat)
  | [] => .ok []
  | g :: t =>
    match linkedAddresses heap chans b g.ref with
    | .error e => .error e
    | .ok l =>
      match allAddresses heap chans b t with
      | .error e => .error e
      | .ok l' => .ok (geoAddresses chans b 0 g ++ l ++ l')

/-- GDTFManager.cpp:5413-5422: `max - min + 1` in 16 bit, starting with max = 0 and min = 512. -/
def blockSize (l : List Nat) : Nat :=
  let max := l.foldl (fun m a => if m < a then a else m) 0
  let min := l.foldl (fun m a => if a < m then a else m) 512
  (max + 65536 - min + 1) % 65536

/-- GDTFManager.cpp:5268-5424 `GetFootPrintForBreak`. -/
def footprint (heap : Nat → Option Geo) (fuel : Nat) (root : Option Geo) (chans : List Chan) (b : Nat) :
    Option (Except Unit Nat) :=
  match breakArray heap fuel root chans with
  | none => none
  | some (.error e) => some (.error e)
  | some (.ok breaks) =>
    if (b : Int) ∉ breaks then some (.ok 0)
    else
      match allAddresses heap chans b (treeOf root) with
      | .error e => some (.error e)
      | .ok l => some (.ok (blockSize l))

end Verif.Geo
