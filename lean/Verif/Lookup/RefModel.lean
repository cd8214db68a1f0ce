import Verif.Lookup.Lemmas

/-!
# Model: reference texts of DMX channels and channel functions, and their lookup in a mode

Objects carry the state after `ResolveDmxChannelRefs`: the names of their geometries and attributes, `none` for a null
pointer. Objects are identified by a number. The cache of `GetName` (GDTFManager.cpp:5651-5660) is not modelled for names
that are computed: the value would be computed again from the same geometry and attribute. `CheckAbort` is not modelled.
-/

namespace Verif.Lookup

/-- `GdtfDmxChannelFunction`: `fName` and `fAttribute`. -/
structure Fn where
  id : Nat
  name : Txt
  attr : Option Txt
deriving DecidableEq, Repr

/-- `GdtfDmxLogicalChannel`: `fName_AutoGenerated`, `fAttribute` and the functions. -/
structure Lc where
  name : Txt
  attr : Option Txt
  fns : List Fn
deriving DecidableEq, Repr

/-- `GdtfDmxChannel`: `fName_AutoGenerated`, `fGeomRef` and the logical channels. -/
structure Ch where
  id : Nat
  name : Txt
  geom : Option Txt
  logicals : List Lc
deriving DecidableEq, Repr

/-- `TXString::itoa` of a non-negative number, GSString.cpp:2044. -/
def itoaTxt (n : Nat) : Txt := (Str.natText n).map (fun c => BitVec.ofNat 16 c.toNat)

/-- `GdtfDmxChannel::GetName`, GDTFManager.cpp:5647-5663, also its node reference (5632-5635). `none`: a null pointer is
dereferenced in line 5654. -/
def Ch.getName (c : Ch) : Option Txt :=
  if c.name ≠ [] then some c.name
  else
    match c.logicals with
    | [] => some (c.geom.getD [] ++ lit "_")
    | l :: _ => l.attr.map (fun a => c.geom.getD [] ++ lit "_" ++ a)

/-- `GdtfDmxLogicalChannel::GetName`, GDTFManager.cpp:5944-5955. -/
def Lc.getName (l : Lc) : Txt := if l.name ≠ [] then l.name else l.attr.getD []

/-- GDTFManager.cpp:6453-6466: the name part of the reference of the function at position `i` of its logical channel. -/
def Fn.refName (f : Fn) (i : Nat) : Txt :=
  if f.name ≠ [] then f.name
  else match f.attr with
    | some a => a ++ lit " " ++ itoaTxt (i + 1)
    | none => []

/-- `GdtfDmxChannelFunction::GetNodeReference`, GDTFManager.cpp:6451-6467 with 5934-5937. -/
def fnRef (c : Ch) (l : Lc) (i : Nat) (f : Fn) : Option Txt :=
  c.getName.map (fun n => n ++ lit "." ++ l.getName ++ lit "." ++ f.refName i)

/-- All functions of a channel with their references, in order. -/
def Ch.fnRefs (c : Ch) : List (Option Txt × Fn) :=
  c.logicals.flatMap (fun l => l.fns.zipIdx.map (fun p => (fnRef c l p.2 p.1, p.1)))

/-- The loops of `AutoGenerateNames` over the functions of a logical channel, GDTFManager.cpp:8081-8105; a function without
name and attribute does not count. -/
def nameFns (n : Nat) : List Fn → List Fn
  | [] => []
  | f :: rest =>
    if f.name = [] then
      match f.attr with
      | none => f :: nameFns n rest
      | some a => { f with name := a ++ lit " " ++ itoaTxt n } :: nameFns (n + 1) rest
    else f :: nameFns (n + 1) rest

/-- The loop over the logical channels, GDTFManager.cpp:8060-8106. -/
def nameLc (l : Lc) : Lc :=
  match l.attr with
  | none => l
  | some a => { l with name := a, fns := nameFns 1 l.fns }

/-- `AutoGenerateNames`, GDTFManager.cpp:8047-8118, for one channel. -/
def nameCh (c : Ch) : Ch :=
  match c.geom with
  | none => c
  | some g =>
    match c.logicals.findSome? (·.attr) with
    | none => { c with logicals := c.logicals.map nameLc }
    | some a => { c with name := g ++ lit "_" ++ a, logicals := c.logicals.map nameLc }

/-- The keys for the index of channels; `none`: undefined behaviour. -/
def chanKeys : List Ch → Option (List Named)
  | [] => some []
  | c :: rest => c.getName.bind fun k => (chanKeys rest).map fun r => ⟨c.id, k⟩ :: r

/-- The same for functions. -/
def fnKeys : List (Option Txt × Fn) → Option (List Named)
  | [] => some []
  | p :: rest => p.1.bind fun k => (fnKeys rest).map fun r => ⟨p.2.id, k⟩ :: r

/-- `fChannelIndex` and `fFunctionIndex`. -/
structure Indexes where
  chans : List (Txt × Named)
  fns : List (Txt × Named)

/-- `BuildModeIndexes`, GDTFManager.cpp:5058-5079. -/
def buildModeIndexes (T : Table Named) (m : List Ch) : Option Indexes :=
  if m.length < 64 then some ⟨[], []⟩
  else
    (chanKeys m).bind fun ck => (fnKeys (m.flatMap Ch.fnRefs)).map fun fk => ⟨buildIndex T ck, buildIndex T fk⟩

/-- A mode after loading: `ResolveDmxModeRefs`, GDTFManager.cpp:8844-8848, first builds the indexes and then generates the
names. -/
structure Loaded where
  index : Indexes
  chans : List Ch

/-- GDTFManager.cpp:8844-8848. -/
def load (T : Table Named) (m : List Ch) : Option Loaded := (buildModeIndexes T m).map fun i => ⟨i, m.map nameCh⟩

/-- The scan over the channels, GDTFManager.cpp:5021-5024 and 5089-5092. Outer `none`: undefined behaviour. -/
def scanCh (ref : Txt) : List Ch → Option (Option Nat)
  | [] => some none
  | c :: rest => c.getName.bind fun k => if eqNoCase k ref then some (some c.id) else scanCh ref rest

/-- The scan over the functions, GDTFManager.cpp:5041-5051 and 5103-5113. -/
def scanFn (ref : Txt) : List (Option Txt × Fn) → Option (Option Nat)
  | [] => some none
  | p :: rest => p.1.bind fun k => if eqNoCase k ref then some (some p.2.id) else scanFn ref rest

/-- `GetMasterByRef` and `GetChannelByIndex`, GDTFManager.cpp:5011-5029 and 5081-5094 (the same search). -/
def Loaded.getChannel (m : Loaded) (T : Table Named) (ref : Txt) : Option (Option Nat) :=
  if m.index.chans ≠ [] then some ((T.find m.index.chans ref).map Named.id) else scanCh ref m.chans

/-- `GetSlaveByRef` and `GetFunctionByIndex`, GDTFManager.cpp:5031-5056 and 5096-5115. -/
def Loaded.getFunction (m : Loaded) (T : Table Named) (ref : Txt) : Option (Option Nat) :=
  if m.index.fns ≠ [] then some ((T.find m.index.fns ref).map Named.id) else scanFn ref (m.chans.flatMap Ch.fnRefs)

/-- What a mode master reference means. -/
inductive Master where
  | channel (id : Nat)
  | function (id : Nat)
  | unresolved
deriving DecidableEq, Repr

/-- `ResolveDMXModeMasters`, GDTFManager.cpp:8876-8908: a channel is looked for first. -/
def Loaded.modeMaster (m : Loaded) (T : Table Named) (ref : Txt) : Option Master :=
  (m.getChannel T ref).bind fun r =>
    match r with
    | some i => some (.channel i)
    | none => (m.getFunction T ref).map fun r =>
      match r with
      | some i => .function i
      | none => .unresolved

end Verif.Lookup
