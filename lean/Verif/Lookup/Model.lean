import Verif.Str.Model

/-!
# Model: names up to case, the hash tables of the fixture and the lookups that use them

`TXString` is the list of its UTF-16 units (Linux branch of the code). An element of a fixture (wheel, emitter, ...) is
its identity (the C++ pointer) and its node reference.
-/

namespace Verif.Lookup

/-- The UTF-16 units of a `TXString`. -/
abbrev Txt := List (BitVec 16)

/-- A literal of the code as `TXString`. -/
def lit (s : String) : Txt := s.toList.map (fun c => BitVec.ofNat 16 c.toNat)

/-- `::toupper` applied to a UTF-16 unit, GSString.cpp:1391 and 2171. Simplification: "C" locale, and the call with a value
above 255 (formally undefined) returns its argument, as glibc does. -/
def upperU (u : BitVec 16) : BitVec 16 := if 97 ≤ u.toNat ∧ u.toNat ≤ 122 then u - 32 else u

/-- `::tolower` applied to a UTF-16 unit, GSString.cpp:1421. Same simplification. -/
def lowerU (u : BitVec 16) : BitVec 16 := if 65 ≤ u.toNat ∧ u.toNat ≤ 90 then u + 32 else u

/-- `TXString::MakeLower`, GSString.cpp:1415-1441. -/
def makeLower (s : Txt) : Txt := s.map lowerU

/-- `TXString::operator==` and `EqualNoCase` through `CompareNoCase`, GSString.cpp:2147-2192 and 2203-2207: both texts are
changed to upper case and compared. -/
def eqNoCase (s t : Txt) : Bool := s.map upperU == t.map upperU

/-- What the code relies on about `std::unordered_map<TXString, β, TXStringNoCaseHash>` (GDTFManager.h:15-23): a hash of the
lowered text, a number of buckets that may change with the number of elements, and an insertion that may reorder the
elements in any way. -/
structure Table (β : Type) where
  /-- `std::hash<std::u16string>`, an arbitrary function. -/
  hash : Txt → Nat
  /-- The number of buckets while the table has the given number of elements. -/
  buckets : Nat → Nat
  /-- The chain of elements after an insertion. -/
  place : List (Txt × β) → Txt × β → List (Txt × β)
  place_perm : ∀ l e, (place l e).Perm (e :: l)

/-- The bucket of a key: `TXStringNoCaseHash::operator()` modulo the bucket count, GDTFManager.h:17-21. -/
def Table.bucket {β : Type} (T : Table β) (n : Nat) (k : Txt) : Nat := T.hash (makeLower k) % T.buckets n

/-- `unordered_map::find`: only the bucket of the key is searched, with `operator==` of `TXString`. -/
def Table.find {β : Type} (T : Table β) (l : List (Txt × β)) (k : Txt) : Option β :=
  (l.find? (fun e => T.bucket l.length e.1 == T.bucket l.length k && eqNoCase e.1 k)).map Prod.snd

/-- `unordered_map::emplace`: nothing happens if the key exists. -/
def Table.emplace {β : Type} (T : Table β) (l : List (Txt × β)) (k : Txt) (v : β) : List (Txt × β) :=
  match T.find l k with
  | some _ => l
  | none => T.place l (k, v)

/-- An element with its `GetNodeReference()`. -/
structure Named where
  id : Nat
  ref : Txt
deriving DecidableEq, Repr

/-- The loops `for (x : array) index.emplace(x->GetNodeReference(), x)`, GDTFManager.cpp:8413-8481. -/
def buildIndex (T : Table Named) (l : List Named) : List (Txt × Named) :=
  l.foldl (fun idx x => T.emplace idx x.ref x) []

/-- The loops `for (x : array) if (x->GetNodeReference() == ref) return x`, GDTFManager.cpp:8208-8366. -/
def scan (l : List Named) (ref : Txt) : Option Named := l.find? (fun x => eqNoCase x.ref ref)

/-- A geometry with its `GetInternalGeometries()`. -/
inductive GTree where
  | node (n : Named) (kids : List GTree)

/-- `IndexGeometryTree`, GDTFManager.cpp:8493-8500. -/
def indexGeo (T : Table Named) : List (Txt × Named) → List GTree → List (Txt × Named)
  | idx, [] => idx
  | idx, .node n kids :: rest => indexGeo T (indexGeo T (T.emplace idx n.ref n) kids) rest

/-- `ResolveGeometryRef` without index, GDTFManager.cpp:9082-9091. -/
def walkGeo : List GTree → Txt → Option Named
  | [], _ => none
  | .node n kids :: rest, ref =>
    if eqNoCase n.ref ref then some n
    else match walkGeo kids ref with
      | some m => some m
      | none => walkGeo rest ref

/-- The elements of a fixture that references can name (members of `GdtfFixture`). The attributes come with their
sub-physical units. -/
structure Fixture where
  attributes : List (Named × List Named)
  wheels : List Named
  models : List Named
  emitters : List Named
  filters : List Named
  connectors : List Named
  colorSpaces : List Named
  gamuts : List Named
  profiles : List Named
  geometries : List GTree

/-- GDTFManager.cpp:8394-8401: `totalElements`. -/
def Fixture.total (f : Fixture) : Nat :=
  f.attributes.length + f.wheels.length + f.models.length + f.emitters.length + f.filters.length + f.connectors.length
    + f.colorSpaces.length + f.gamuts.length + f.profiles.length + f.geometries.length

/-- GDTFManager.cpp:8403-8409: `fUseIndexes`. -/
def Fixture.useIndexes (f : Fixture) : Bool := ! decide (f.total < 128)

/-- The kinds of elements with a plain lookup. -/
inductive Kind where
  | wheel | model | emitter | filter | connector | colorSpace | gamut | profile | subUnit
deriving DecidableEq, Repr

/-- The array that is scanned (and indexed, in the same order) for a kind; sub-physical units are collected from all
attributes, GDTFManager.cpp:8472-8479 and 8348-8366. -/
def Fixture.elements (f : Fixture) : Kind → List Named
  | .wheel => f.wheels
  | .model => f.models
  | .emitter => f.emitters
  | .filter => f.filters
  | .connector => f.connectors
  | .colorSpace => f.colorSpaces
  | .gamut => f.gamuts
  | .profile => f.profiles
  | .subUnit => f.attributes.flatMap Prod.snd

/-- `getWheelByRef`, `getEmiterByRef`, ..., GDTFManager.cpp:8206-8366, and the model lookup 8533-8544. -/
def Fixture.getByRef (f : Fixture) (T : Table Named) (k : Kind) (ref : Txt) : Option Named :=
  if f.useIndexes then T.find (buildIndex T (f.elements k)) ref else scan (f.elements k) ref

/-- `ResolveGeometryRef(ref, fGeometries)`, GDTFManager.cpp:9073-9091. -/
def Fixture.resolveGeometry (f : Fixture) (T : Table Named) (ref : Txt) : Option Named :=
  if f.useIndexes then T.find (indexGeo T [] f.geometries) ref else walkGeo f.geometries ref

/-- The loop over the top geometries in `ResolveDmxChannelRefs`, GDTFManager.cpp:8995-9002. -/
def chanLoop : List GTree → Txt → Option Named
  | [], _ => none
  | .node n kids :: rest, ref =>
    if eqNoCase n.ref ref then some n
    else match walkGeo kids ref with
      | some m => some m
      | none => chanLoop rest ref

/-- The geometry of a DMX channel, GDTFManager.cpp:8984-9012: `none` is reported as a missing link. -/
def Fixture.channelGeometry (f : Fixture) (T : Table Named) (ref : Txt) : Option Named :=
  if ref = [] then none
  else if f.useIndexes then T.find (indexGeo T [] f.geometries) ref
  else chanLoop f.geometries ref

/-- The geometry of a DMX mode, GDTFManager.cpp:8821-8830: only the top geometries are considered. -/
def Fixture.modeGeometry (f : Fixture) (ref : Txt) : Option Named :=
  if ref = [] then none
  else scan (f.geometries.map (fun g => match g with | .node n _ => n)) ref

/-- The name constant `XML_GDTF_AttributeNoFeature_nullptr`, CommonPrefix.h:302. -/
def noFeatureText : Txt := lit "NoFeature"

/-- The state `getAttributeByRef` works on: `fAttributes`, `fNoFeature`, and `fAttributeIndex` if `fUseIndexes`. -/
structure AttrState where
  attrs : List Named
  noFeature : Option Named
  index : Option (List (Txt × Named))

/-- `BuildLookupIndexes`, the parts about attributes, GDTFManager.cpp:8381-8393 and 8411-8417. -/
def Fixture.attrState (f : Fixture) (T : Table Named) : AttrState :=
  let as := f.attributes.map Prod.fst
  { attrs := as
    noFeature := scan as noFeatureText
    index := if f.useIndexes then some (buildIndex T as) else none }

/-- `CreateNoFeatureAttribute`, GDTFManager.cpp:8158-8204; `fresh` is the identity of the new object. The feature group it
also creates is not modelled. -/
def AttrState.createNoFeature (s : AttrState) (fresh : Nat) : AttrState :=
  { s with attrs := s.attrs ++ [⟨fresh, noFeatureText⟩], noFeature := some ⟨fresh, noFeatureText⟩ }

/-- GDTFManager.cpp:8122-8129 and 8145-8152: `fNoFeature`, created if needed. -/
def AttrState.needNoFeature (s : AttrState) (fresh : Nat) : AttrState × Option Named :=
  match s.noFeature with
  | some a => (s, some a)
  | none => (s.createNoFeature fresh, some ⟨fresh, noFeatureText⟩)

/-- GDTFManager.cpp:8131-8142: the search in the index or the array. -/
def AttrState.search (s : AttrState) (T : Table Named) (ref : Txt) : Option Named :=
  match s.index with
  | some idx => T.find idx ref
  | none => scan s.attrs ref

/-- `getAttributeByRef`, GDTFManager.cpp:8120-8156. -/
def AttrState.getByRef (s : AttrState) (T : Table Named) (fresh : Nat) (ref : Txt) : AttrState × Option Named :=
  if eqNoCase ref noFeatureText then s.needNoFeature fresh
  else
    match s.search T ref with
    | some a => (s, some a)
    | none => if ref = [] then s.needNoFeature fresh else (s, s.noFeature)

/-- A history of attribute lookups; the identities of created objects start at `fresh`. -/
def AttrState.run (T : Table Named) : AttrState → Nat → List Txt → List (Option Named)
  | _, _, [] => []
  | s, fresh, ref :: refs =>
    let r := s.getByRef T fresh ref
    r.2 :: AttrState.run T r.1 (fresh + 1) refs

/-! ## Duplicate channels -/

/-- A logical channel as `ResolveDmxLogicalChanRefs` sees it: the attribute `getAttributeByRef` returned (its name), `none`
for a null pointer, and whether it is the object `fNoFeature`. -/
structure LChan where
  attr : Option Txt
  isNoFeature : Bool
deriving DecidableEq, Repr

/-- A DMX channel: the name of the geometry its reference resolved to, `none` if it did not, and its logical channels. -/
structure DChan where
  geom : Option Txt
  logicals : List LChan
deriving DecidableEq, Repr

/-- What is reported for one logical channel. -/
inductive Report where
  | fine | duplicate | noAttribute
deriving DecidableEq, Repr

/-- The current contents of a channel while the loop runs: `GetGeomRef()` (name) and per logical channel `GetAttribute()`. -/
structure Seen where
  geom : Option Txt
  attrs : List (Option Txt)

/-- A channel that was not processed yet: nothing is set. -/
def DChan.untouched (c : DChan) : Seen := ⟨none, c.logicals.map (fun _ => none)⟩

/-- A channel that was processed completely. -/
def DChan.finished (c : DChan) : Seen := ⟨c.geom, c.logicals.map (·.attr)⟩

/-- GDTFManager.cpp:9137-9162: the scan over all channels of the mode, which ends at the first channel without geometry. -/
def scanDup (g a : Txt) : List Seen → Bool
  | [] => false
  | s :: rest =>
    match s.geom with
    | none => false
    | some cg => s.attrs.any (fun ca => eqNoCase g cg && eqNoCase a (ca.getD [])) || scanDup g a rest

/-- GDTFManager.cpp:9118-9119: such attributes may be linked several times. -/
def exempt (l : LChan) (a : Txt) : Bool := l.isNoFeature || eqNoCase a noFeatureText || eqNoCase a (lit "Dummy")

/-- GDTFManager.cpp:9128-9129: the key of a pair. -/
def pairKey (g a : Txt) : Txt := makeLower (g ++ lit "|" ++ a)

/-- `ResolveDmxLogicalChanRefs` with the set, GDTFManager.cpp:9093-9185, for one channel. -/
def logicalsSet (T : Table Unit) (g : Option Txt) : List (Txt × Unit) → List LChan → List (Txt × Unit) × List Report
  | seen, [] => (seen, [])
  | seen, l :: rest =>
    match l.attr with
    | none => let r := logicalsSet T g seen rest; (r.1, .noAttribute :: r.2)
    | some a =>
      if exempt l a then let r := logicalsSet T g seen rest; (r.1, .fine :: r.2)
      else
        let key := pairKey (g.getD []) a
        let exists' := (T.find seen key).isSome
        let r := logicalsSet T g (T.emplace seen key ()) rest
        (r.1, (if exists' then .duplicate else .fine) :: r.2)

/-- `ResolveDmxChannelRefs` for a mode with 64 channels or more, GDTFManager.cpp:8973-9066. -/
def modeSet (T : Table Unit) : List (Txt × Unit) → List DChan → List (List Report)
  | _, [] => []
  | seen, c :: rest =>
    let r := logicalsSet T c.geom seen c.logicals
    r.2 :: modeSet T r.1 rest

/-- `ResolveDmxLogicalChanRefs` without the set, for the channel after `before` and in front of `after`; `done` are the
attributes already set in this channel. -/
def logicalsScan (before : List Seen) (g : Option Txt) (done : List (Option Txt)) (after : List Seen) :
    List LChan → List Report
  | [] => []
  | l :: rest =>
    match l.attr with
    | none => .noAttribute :: logicalsScan before g (done ++ [none]) after rest
    | some a =>
      let state := before ++ [⟨g, done ++ none :: rest.map (fun _ => none)⟩] ++ after
      let r := if exempt l a then Report.fine
        else if scanDup (g.getD []) a state then .duplicate else .fine
      r :: logicalsScan before g (done ++ [some a]) after rest

/-- `ResolveDmxChannelRefs` for a mode with less than 64 channels. -/
def modeScan (before : List Seen) : List DChan → List (List Report)
  | [] => []
  | c :: rest =>
    logicalsScan before c.geom [] (rest.map DChan.untouched) c.logicals :: modeScan (before ++ [c.finished]) rest

/-- The reports of a mode, GDTFManager.cpp:8975-8978: two algorithms. -/
def modeReports (T : Table Unit) (chans : List DChan) : List (List Report) :=
  if 64 ≤ chans.length then modeSet T [] chans else modeScan [] chans

end Verif.Lookup
