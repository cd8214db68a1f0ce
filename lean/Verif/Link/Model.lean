import Verif.Lookup.RefProps
import Verif.Lookup.Props

/-!
# Model: the links of a fixture, as texts in the file and as pointers in memory

A link is a text in the description and a pointer in memory. `write` replaces pointers by node references, as the
`OnPrintToFile` functions do; `resolve` is `GdtfFixture::ResolveAllReferences`, GDTFManager.cpp:8502-8512, on a fixture whose
nodes were read. Everything that is not a link, or needed to find the target of a link, is left out: values, DMX resolutions,
channel sets, revisions. `CheckAbort` is not modelled, nor are the reports of duplicate pairs of geometry and attribute (model
`Lookup`) and the second report of a missing attribute in `AutoGenerateNames`.
-/

namespace Verif.Link

open Lookup

/-- A pointer to an element with its node reference, `none` for a null pointer. -/
abbrev Ptr := Option Named

/-- `GdtfAttribute`: its sub-physical units, `fActivationGroup`, `fFeature` and `fMainAttribute`. -/
structure Attr (L : Type) where
  me : Named
  units : List Named
  group : L
  feature : L
  main : L
deriving DecidableEq, Repr

/-- The links of the particular kinds of geometries: `GdtfGeometryReference::fLinkedGeometry`, `GdtfGeometryLamp::
fEmitterSpectrum`, `GdtfGeometryLaser::fEmitter`, `GdtfPinPatch::fToWiringObject` of the pin patches of a wiring object, and
`GdtfGeometryStructure::fLinkedGeometry`. -/
inductive Own (L : Type) where
  | plain
  | reference (target : L)
  | lamp (emitter : L)
  | laser (emitter : L)
  | wiring (patches : List L)
  | support (target : L)
deriving DecidableEq, Repr

/-- `GdtfGeometry` with `fModelReference` and `fInternalGeometries`. -/
inductive Geo (L : Type) where
  | node (me : Named) (model : L) (own : Own L) (kids : List (Geo L))

/-- `GdtfDmxSubChannelSet`: `fSubPhysicalUnit` and `fDMXProfile`. -/
structure Sub (L : Type) where
  unit : L
  profile : L
deriving DecidableEq, Repr

/-- `GdtfDmxChannelFunction`: `fName`, the links to elements of the fixture, and the mode master. -/
structure Func (L M : Type) where
  id : Nat
  name : Txt
  attr : L
  wheel : L
  emitter : L
  filter : L
  space : L
  gamut : L
  profile : L
  master : M
  subs : List (Sub L)
deriving DecidableEq, Repr

/-- `GdtfDmxLogicalChannel`: `fName_AutoGenerated`, `fAttribute`, the functions. -/
structure Logical (L M : Type) where
  id : Nat
  name : Txt
  attr : L
  fns : List (Func L M)
deriving DecidableEq, Repr

/-- `GdtfDmxChannel`: `fName_AutoGenerated`, `fGeomRef`, `fInitialFunction`, the logical channels. -/
structure Chan (L C M : Type) where
  id : Nat
  name : Txt
  geom : L
  initial : C
  logicals : List (Logical L M)
deriving DecidableEq, Repr

/-- `GdtfDmxRelation`: `fMasterDmxChannel` and `fSlaveChannelFunction`. -/
structure Rel (C : Type) where
  master : C
  slave : C
deriving DecidableEq, Repr

/-- `GdtfMacro`: `fChannelFunction`, the channels of the DMX values of all steps (each with the identity of the value), and the
functions of the visual values of all steps. -/
structure Macro (C : Type) where
  fn : C
  dmx : List (Nat × C)
  visual : List C
deriving DecidableEq, Repr

/-- `GdtfDmxMode`. -/
structure Mode (L C M : Type) where
  me : Named
  geom : L
  chans : List (Chan L C M)
  relations : List (Rel C)
  macros : List (Macro C)
deriving DecidableEq, Repr

/-- `GdtfFixture`. A feature group is its name and its features; the wheels come with the filters of their slots, the
personalities of all software versions with their identities. -/
structure Fx (L C M : Type) where
  groups : List Named
  features : List (Txt × List Named)
  attrs : List (Attr L)
  wheels : List (Named × List L)
  models : List Named
  emitters : List Named
  filters : List Named
  connectors : List Named
  spaces : List Named
  gamuts : List Named
  profiles : List Named
  geos : List (Geo L)
  modes : List (Mode L C M)
  persons : List (Nat × L)

/-- A fixture in memory: pointers to elements of the fixture, pointers to channels or functions of the same mode (by
identity), mode masters. Pointers to channels and functions of other modes are outside the model. -/
abbrev Mem := Fx Ptr (Option Nat) Master

/-- A fixture as its description: all links are texts. -/
abbrev Doc := Fx Txt Txt Txt

/-! ## The elements links can lead to -/

/-- The geometries as trees. -/
def trees {L : Type} : List (Geo L) → List GTree
  | [] => []
  | .node me _ _ kids :: rest => .node me (trees kids) :: trees rest

/-- The arrays the lookups search. -/
def Fx.pool {L C M : Type} (F : Fx L C M) : Fixture where
  attributes := F.attrs.map fun a => (a.me, a.units)
  wheels := F.wheels.map Prod.fst
  models := F.models
  emitters := F.emitters
  filters := F.filters
  connectors := F.connectors
  colorSpaces := F.spaces
  gamuts := F.gamuts
  profiles := F.profiles
  geometries := trees F.geos

/-- The features of a group with `GdtfFeature::GetNodeReference`, GDTFManager.cpp:302-306. -/
def featureRefs (g : Txt × List Named) : List Named := g.2.map fun x => ⟨x.id, g.1 ++ lit "." ++ x.ref⟩

/-! ## Channels and functions of a mode, as in the model of references -/

/-- What the references of a function depend on. -/
def Func.toFn {M : Type} (f : Func Ptr M) : Fn := ⟨f.id, f.name, f.attr.map Named.ref⟩

/-- What the references in a logical channel depend on. -/
def Logical.toLc {M : Type} (l : Logical Ptr M) : Lc := ⟨l.name, l.attr.map Named.ref, l.fns.map Func.toFn⟩

/-- What the references in a channel depend on. -/
def Chan.toCh {C M : Type} (c : Chan Ptr C M) : Ch := ⟨c.id, c.name, c.geom.map Named.ref, c.logicals.map Logical.toLc⟩

/-! ## Writing -/

/-- `g` for all elements; `none` if it fails for one. -/
def mapO {α β : Type} (g : α → Option β) : List α → Option (List β)
  | [] => some []
  | x :: rest => (g x).bind fun y => (mapO g rest).map fun ys => y :: ys

/-- `if (link) { SetNodeAttributeValue(..., link->GetNodeReference()); }`: an attribute that is not written is read as the
empty text. -/
def text (p : Ptr) : Txt :=
  match p with
  | some x => x.ref
  | none => []

/-- The attribute of a pointer to a channel function; outer `none`: a null pointer is dereferenced in `GetName` of its channel. -/
def fnAttr (chans : List Ch) (p : Option Nat) : Option Txt :=
  match p with
  | none => some []
  | some i => ((chans.flatMap Ch.fnRefs).find? (fun q => q.2.id == i)).bind Prod.fst

/-- The attribute of a pointer to a channel. -/
def chAttr (chans : List Ch) (p : Option Nat) : Option Txt :=
  match p with
  | none => some []
  | some i => (chans.find? (fun c => c.id == i)).bind Ch.getName

/-- GDTFManager.cpp:2281, 3273, 3417, 3999-4002, 4519, 4799: the link attributes of geometries. -/
def writeOwn : Own Ptr → Own Txt
  | .plain => .plain
  | .reference p => .reference (text p)
  | .lamp p => .lamp (text p)
  | .laser p => .laser (text p)
  | .wiring ps => .wiring (ps.map text)
  | .support p => .support (text p)

/-- `GdtfGeometry::OnPrintToFile`, GDTFManager.cpp:2269-2297. -/
def writeGeos : List (Geo Ptr) → List (Geo Txt)
  | [] => []
  | .node me model own kids :: rest => .node me (text model) (writeOwn own) (writeGeos kids) :: writeGeos rest

/-- `GdtfAttribute::OnPrintToFile`, GDTFManager.cpp:639-641. -/
def writeAttr (a : Attr Ptr) : Attr Txt := ⟨a.me, a.units, text a.group, text a.feature, text a.main⟩

/-- GDTFManager.cpp:7028-7029. -/
def writeSub (s : Sub Ptr) : Sub Txt := ⟨text s.unit, text s.profile⟩

/-- `GdtfDmxChannelFunction::OnPrintToFile`, GDTFManager.cpp:6141 and 6155-6180. -/
def writeFn (chans : List Ch) (f : Func Ptr Master) : Option (Func Txt Txt) :=
  (match f.master with
    | .channel i => chAttr chans (some i)
    | .function i => fnAttr chans (some i)
    | .unresolved => some []).map fun m =>
  ⟨f.id, f.name, text f.attr, text f.wheel, text f.emitter, text f.filter, text f.space, text f.gamut, text f.profile, m,
    f.subs.map writeSub⟩

/-- `GdtfDmxLogicalChannel::OnPrintToFile`, GDTFManager.cpp:5842-5866: the name is not written. -/
def writeLogical (chans : List Ch) (l : Logical Ptr Master) : Option (Logical Txt Txt) :=
  (mapO (writeFn chans) l.fns).map fun fns => ⟨l.id, [], text l.attr, fns⟩

/-- `GdtfDmxChannel::OnPrintToFile`, GDTFManager.cpp:5516-5540: the name is not written. -/
def writeChan (chans : List Ch) (c : Chan Ptr (Option Nat) Master) : Option (Chan Txt Txt Txt) :=
  (fnAttr chans c.initial).bind fun i =>
  (mapO (writeLogical chans) c.logicals).map fun ls => ⟨c.id, [], text c.geom, i, ls⟩

/-- `GdtfDmxRelation::OnPrintToFile`, GDTFManager.cpp:7155-7156. -/
def writeRel (chans : List Ch) (r : Rel (Option Nat)) : Option (Rel Txt) :=
  (chAttr chans r.master).bind fun m => (fnAttr chans r.slave).map fun s => ⟨m, s⟩

/-- `GdtfMacro::OnPrintToFile`, GDTFManager.cpp:7611, `GdtfMacroDMXValue::OnPrintToFile`, 11797-11815, and
`GdtfMacroVisualValue::OnPrintToFile`, 12112-12126: the pointers of the values are dereferenced without a test. -/
def writeMacro (chans : List Ch) (m : Macro (Option Nat)) : Option (Macro Txt) :=
  (fnAttr chans m.fn).bind fun fn =>
  (mapO (fun (v : Nat × Option Nat) => if v.2 = none then none else (chAttr chans v.2).map fun t => (v.1, t)) m.dmx).bind fun d =>
  (mapO (fun (v : Option Nat) => if v = none then none else fnAttr chans v) m.visual).map fun v => ⟨fn, d, v⟩

/-- `GdtfDmxMode::OnPrintToFile`, GDTFManager.cpp:4870-4920. -/
def writeMode (m : Mode Ptr (Option Nat) Master) : Option (Mode Txt Txt Txt) :=
  let chans := m.chans.map Chan.toCh
  (mapO (writeChan chans) m.chans).bind fun cs =>
  (mapO (writeRel chans) m.relations).bind fun rs =>
  (mapO (writeMacro chans) m.macros).map fun ms => ⟨m.me, text m.geom, cs, rs, ms⟩

/-- The description written for a fixture; `none`: a null pointer is dereferenced. The personalities are written without a
test, GDTFManager.cpp:11047. -/
def write (F : Mem) : Option Doc :=
  (mapO writeMode F.modes).bind fun modes =>
  (mapO (fun (p : Nat × Ptr) => p.2.map fun x => (p.1, x.ref)) F.persons).map fun persons =>
  { groups := F.groups, features := F.features, attrs := F.attrs.map writeAttr
    wheels := F.wheels.map fun w => (w.1, w.2.map text)
    models := F.models, emitters := F.emitters, filters := F.filters, connectors := F.connectors, spaces := F.spaces
    gamuts := F.gamuts, profiles := F.profiles, geos := writeGeos F.geos, modes := modes, persons := persons }

/-! ## Resolving -/

/-- The parsing errors about links. -/
inductive Code where
  | geometryModel | geometryReference | modeGeometry | channelGeometry | logicalAttribute | functionAttribute
  | initialFunction | noFunction | macroChannel | modeMaster | personality | activationGroup | feature | mainAttribute
deriving DecidableEq, Repr

/-- A parsing error and the identity of the object whose node is reported. -/
abbrev Err := Code × Nat

/-- `if (!ref.IsEmpty()) { holder->SetX(getXByRef(ref)); }`. -/
def opt (look : Txt → Option Named) (t : Txt) : Ptr := if t = [] then none else look t

/-- `ResolveGeometryRefs_Recursive`, GDTFManager.cpp:8530-8558: the model. -/
def resolveModel (f : Fixture) (T : Table Named) (id : Nat) (t : Txt) : Ptr × List Err :=
  if t = [] then (none, [])
  else match f.getByRef T .model t with
    | some x => (some x, [])
    | none => (none, [(.geometryModel, id)])

/-- `ResolveGeometryRefs_Recursive`, GDTFManager.cpp:8562-8641: the links of the particular kinds. The target of a pin patch
is not tested to be a wiring object, 8623. -/
def resolveOwn (f : Fixture) (T : Table Named) (id : Nat) : Own Txt → Own Ptr × List Err
  | .plain => (.plain, [])
  | .reference t =>
    match f.resolveGeometry T t with
    | some x => (.reference (some x), [])
    | none => (.reference none, [(.geometryReference, id)])
  | .lamp t => (.lamp (opt (f.getByRef T .emitter) t), [])
  | .laser t => (.laser (opt (f.getByRef T .emitter) t), [])
  | .wiring ts => (.wiring (ts.map (opt (f.resolveGeometry T))), [])
  | .support t => (.support (opt (f.resolveGeometry T) t), [])

/-- `ResolveGeometryRefs` and `ResolveGeometryRefs_Recursive`, GDTFManager.cpp:8514-8652. -/
def resolveGeos (f : Fixture) (T : Table Named) : List (Geo Txt) → List (Geo Ptr) × List Err
  | [] => ([], [])
  | .node me model own kids :: rest =>
    let m := resolveModel f T me.id model
    let o := resolveOwn f T me.id own
    let k := resolveGeos f T kids
    let r := resolveGeos f T rest
    (.node me m.1 o.1 k.1 :: r.1, m.2 ++ o.2 ++ k.2 ++ r.2)

/-- The state while links are resolved: the attributes, the identity of the next new object, the attributes that were created,
and the feature groups. -/
structure St where
  attrs : AttrState
  next : Nat
  created : List (Attr Ptr)
  features : List (Txt × List Named)

/-- The feature "Control" of a group, `CreateNoFeatureAttribute`, GDTFManager.cpp:8187-8201: found or added. -/
def controlFeature (fresh : Nat) (g : Txt × List Named) : (Txt × List Named) × Named :=
  match scan g.2 (lit "Control") with
  | some x => (g, ⟨x.id, g.1 ++ lit "." ++ x.ref⟩)
  | none => ((g.1, g.2 ++ [⟨fresh, lit "Control"⟩]), ⟨fresh, g.1 ++ lit "." ++ lit "Control"⟩)

/-- `CreateNoFeatureAttribute`, GDTFManager.cpp:8166-8201: the feature group "Control", found or added, with its feature. -/
def controlGroup (fresh : Nat) : List (Txt × List Named) → List (Txt × List Named) × Named
  | [] => let r := controlFeature fresh (lit "Control", []); ([r.1], r.2)
  | g :: rest =>
    if eqNoCase g.1 (lit "Control") then let r := controlFeature fresh g; (r.1 :: rest, r.2)
    else let r := controlGroup fresh rest; (g :: r.1, r.2)

/-- `getAttributeByRef`, GDTFManager.cpp:8120-8156, with the whole of `CreateNoFeatureAttribute`, 8158-8204. -/
def St.getAttr (s : St) (T : Table Named) (t : Txt) : St × Ptr :=
  let r := s.attrs.getByRef T s.next t
  if s.attrs.noFeature.isNone && r.1.noFeature.isSome then
    let c := controlGroup (s.next + 1) s.features
    ({ attrs := r.1, next := s.next + 2, features := c.1
       created := s.created ++ [⟨⟨s.next, noFeatureText⟩, [], none, some c.2, none⟩] }, r.2)
  else ({ s with attrs := r.1 }, r.2)

/-- A loop that changes a state, gives a result for every element and reports errors; `none`: undefined behaviour. -/
def thread {σ α β : Type} (g : σ → α → Option (σ × β × List Err)) : σ → List α → Option (σ × List β × List Err)
  | s, [] => some (s, [], [])
  | s, x :: rest =>
    (g s x).bind fun r => (thread g r.1 rest).map fun q => (q.1, r.2.1 :: q.2.1, r.2.2 ++ q.2.2)

/-- `ResolveDmxSubChannelSetRefs`, GDTFManager.cpp:9272-9295. -/
def resolveSub (f : Fixture) (T : Table Named) (s : Sub Txt) : Sub Ptr :=
  ⟨opt (f.getByRef T .subUnit) s.unit, opt (f.getByRef T .profile) s.profile⟩

/-- `ResolveDmxChanelFunctionRefs`, GDTFManager.cpp:9187-9270, for one function. -/
def resolveFn (f : Fixture) (T : Table Named) (s : St) (x : Func Txt Txt) : Option (St × Func Ptr Txt × List Err) :=
  let r := s.getAttr T x.attr
  some (r.1, { id := x.id, name := x.name, attr := r.2
               wheel := opt (f.getByRef T .wheel) x.wheel
               emitter := opt (f.getByRef T .emitter) x.emitter
               filter := opt (f.getByRef T .filter) x.filter
               space := opt (f.getByRef T .colorSpace) x.space
               gamut := opt (f.getByRef T .gamut) x.gamut
               profile := opt (f.getByRef T .profile) x.profile
               master := x.master, subs := x.subs.map (resolveSub f T) },
    if r.2 = none then [(.functionAttribute, x.id)] else [])

/-- `ResolveDmxLogicalChanRefs`, GDTFManager.cpp:9093-9185, for one logical channel. -/
def resolveLogical (f : Fixture) (T : Table Named) (s : St) (x : Logical Txt Txt) :
    Option (St × Logical Ptr Txt × List Err) :=
  let r := s.getAttr T x.attr
  (thread (resolveFn f T) r.1 x.fns).map fun q =>
    (q.1, ⟨x.id, x.name, r.2, q.2.1⟩, (if r.2 = none then [(.logicalAttribute, x.id)] else []) ++ q.2.2)

/-- `ResolveDmxChannelRefs`, GDTFManager.cpp:9022-9066: the initial function is searched in the channel; without a text it is
the first function. -/
def resolveInitial (c : Chan Ptr Txt Txt) : Option (Option Nat × List Err) :=
  if c.initial ≠ [] then
    (scanFn c.initial c.toCh.fnRefs).map fun r =>
      match r with
      | some i => (some i, [])
      | none => (none, [(.initialFunction, c.id)])
  else
    match c.logicals with
    | ⟨_, _, _, fn :: _⟩ :: _ => some (some fn.id, [])
    | _ => some (none, [(.noFunction, c.id)])

/-- `ResolveDmxChannelRefs`, GDTFManager.cpp:8973-9071, for one channel. -/
def resolveChan (f : Fixture) (T : Table Named) (s : St) (x : Chan Txt Txt Txt) :
    Option (St × Chan Ptr (Option Nat) Txt × List Err) :=
  let g := f.channelGeometry T x.geom
  (thread (resolveLogical f T) s x.logicals).bind fun q =>
  (resolveInitial ⟨x.id, x.name, g, x.initial, q.2.1⟩).map fun i =>
    (q.1, ⟨x.id, x.name, g, i.1, q.2.1⟩, (if g = none then [(.channelGeometry, x.id)] else []) ++ q.2.2 ++ i.2)

/-- `AutoGenerateNames`, GDTFManager.cpp:8081-8105. -/
def nameFuncs {M : Type} (n : Nat) : List (Func Ptr M) → List (Func Ptr M)
  | [] => []
  | f :: rest =>
    if f.name = [] then
      match f.attr with
      | none => f :: nameFuncs n rest
      | some a => { f with name := a.ref ++ lit " " ++ itoaTxt n } :: nameFuncs (n + 1) rest
    else f :: nameFuncs (n + 1) rest

/-- `AutoGenerateNames`, GDTFManager.cpp:8060-8106. -/
def nameLogical {M : Type} (l : Logical Ptr M) : Logical Ptr M :=
  match l.attr with
  | none => l
  | some a => { l with name := a.ref, fns := nameFuncs 1 l.fns }

/-- `AutoGenerateNames`, GDTFManager.cpp:8047-8118, for one channel. -/
def nameChan {C M : Type} (c : Chan Ptr C M) : Chan Ptr C M :=
  match c.geom with
  | none => c
  | some g =>
    match c.logicals.findSome? (·.attr) with
    | none => { c with logicals := c.logicals.map nameLogical }
    | some a => { c with name := g.ref ++ lit "_" ++ a.ref, logicals := c.logicals.map nameLogical }

/-- `ResolveDmxRelationRefs`, GDTFManager.cpp:8959-8971: also empty texts are looked up. -/
def resolveRel (T : Table Named) (L : Loaded) (_ : Unit) (r : Rel Txt) : Option (Unit × Rel (Option Nat) × List Err) :=
  (L.getChannel T r.master).bind fun m => (L.getFunction T r.slave).map fun s => ((), ⟨m, s⟩, [])

/-- `ResolveMacroRefs`, GDTFManager.cpp:8759-8785: a value of a DMX step. -/
def resolveDmxValue (T : Table Named) (L : Loaded) (_ : Unit) (v : Nat × Txt) : Option (Unit × (Nat × Option Nat) × List Err) :=
  (L.getChannel T v.2).map fun r => ((), (v.1, r), if r = none then [(.macroChannel, v.1)] else [])

/-- `ResolveMacroRefs`, GDTFManager.cpp:8787-8811: a value of a visual step. Nothing is reported. -/
def resolveVisualValue (T : Table Named) (L : Loaded) (_ : Unit) (v : Txt) : Option (Unit × Option Nat × List Err) :=
  (L.getFunction T v).map fun r => ((), r, [])

/-- `ResolveMacroRefs`, GDTFManager.cpp:8743-8813, for one macro. -/
def resolveMacro (T : Table Named) (L : Loaded) (_ : Unit) (m : Macro Txt) : Option (Unit × Macro (Option Nat) × List Err) :=
  (if m.fn = [] then some none else L.getFunction T m.fn).bind fun fn =>
  (thread (resolveDmxValue T L) () m.dmx).bind fun d =>
  (thread (resolveVisualValue T L) () m.visual).map fun v => ((), ⟨fn, d.2.1, v.2.1⟩, d.2.2)

/-- `ResolveDmxModeRefs`, GDTFManager.cpp:8815-8855, for one mode. The lookup tables of the mode are kept. -/
def resolveMode (f : Fixture) (T : Table Named) (s : St) (m : Mode Txt Txt Txt) :
    Option (St × (Mode Ptr (Option Nat) Txt × Loaded) × List Err) :=
  let g := f.modeGeometry m.geom
  (thread (resolveChan f T) s m.chans).bind fun q =>
  (load T (q.2.1.map Chan.toCh)).bind fun L =>
  (thread (resolveRel T L) () m.relations).bind fun r =>
  (thread (resolveMacro T L) () m.macros).map fun k =>
    (q.1, (⟨m.me, g, q.2.1.map nameChan, r.2.1, k.2.1⟩, L),
      (if g = none then [(.modeGeometry, m.me.id)] else []) ++ q.2.2 ++ k.2.2)

/-- `ResolveDMXModeMasters`, GDTFManager.cpp:8873-8908, for one function of the channel `c`. -/
def masterFn (T : Table Named) (L : Loaded) (c : Nat) (_ : Unit) (x : Func Ptr Txt) :
    Option (Unit × Func Ptr Master × List Err) :=
  (if x.master = [] then some (.unresolved, []) else (L.modeMaster T x.master).map fun r =>
      (r, if r = .unresolved then [(Code.modeMaster, c)] else [])).map fun r =>
    ((), { id := x.id, name := x.name, attr := x.attr, wheel := x.wheel, emitter := x.emitter, filter := x.filter
           space := x.space, gamut := x.gamut, profile := x.profile, master := r.1, subs := x.subs }, r.2)

/-- `ResolveDMXModeMasters`, GDTFManager.cpp:8867-8911, for one logical channel. -/
def masterLogical (T : Table Named) (L : Loaded) (c : Nat) (_ : Unit) (x : Logical Ptr Txt) :
    Option (Unit × Logical Ptr Master × List Err) :=
  (thread (masterFn T L c) () x.fns).map fun q => ((), ⟨x.id, x.name, x.attr, q.2.1⟩, q.2.2)

/-- `ResolveDMXModeMasters`, GDTFManager.cpp:8863-8912, for one channel. -/
def masterChan (T : Table Named) (L : Loaded) (_ : Unit) (x : Chan Ptr (Option Nat) Txt) :
    Option (Unit × Chan Ptr (Option Nat) Master × List Err) :=
  (thread (masterLogical T L x.id) () x.logicals).map fun q => ((), ⟨x.id, x.name, x.geom, x.initial, q.2.1⟩, q.2.2)

/-- `ResolveDMXModeMasters`, GDTFManager.cpp:8857-8916, for one mode. -/
def masterMode (T : Table Named) (_ : Unit) (m : Mode Ptr (Option Nat) Txt × Loaded) :
    Option (Unit × Mode Ptr (Option Nat) Master × List Err) :=
  (thread (masterChan T m.2) () m.1.chans).map fun q => ((), ⟨m.1.me, m.1.geom, q.2.1, m.1.relations, m.1.macros⟩, q.2.2)

/-- `ResolveDMXPersonalityRefs`, GDTFManager.cpp:8919-8957, for one personality. -/
def resolvePerson (modes : List Named) (p : Nat × Txt) : (Nat × Ptr) × List Err :=
  match scan modes p.2 with
  | some m => ((p.1, some m), [])
  | none => ((p.1, none), [(.personality, p.1)])

/-- `ResolveAttribRefs`, GDTFManager.cpp:8704-8712: only the inner loop is left when the feature was found. -/
def lastFeature (t : Txt) : Ptr → List (Txt × List Named) → Ptr
  | acc, [] => acc
  | acc, g :: rest => lastFeature t ((scan (featureRefs g) t).or acc) rest

/-- `ResolveAttribRefs`, GDTFManager.cpp:8722-8739: the main attribute. `none`: `CreateNoFeatureAttribute` appends to
`fAttributes` while a loop runs over it, so the iterators of the loop are no longer valid. -/
def resolveMain (s : St) (T : Table Named) (id : Nat) (t : Txt) : Option (Ptr × List Err) :=
  if t = [] then some (none, [])
  else
    let r := s.getAttr T t
    if s.attrs.noFeature.isNone && r.1.attrs.noFeature.isSome then none
    else some (r.2, if r.2 = none then [(.mainAttribute, id)] else [])

/-- `ResolveAttribRefs`, GDTFManager.cpp:8672-8741, for one attribute. Without a feature the loop goes on to the next
attribute, 8702. -/
def resolveAttr (T : Table Named) (groups : List Named) (s : St) (a : Attr Txt) : Option (St × Attr Ptr × List Err) :=
  let g := opt (scan groups) a.group
  let ge := if a.group ≠ [] ∧ g = none then [(Code.activationGroup, a.me.id)] else []
  if a.feature = [] then some (s, ⟨a.me, a.units, g, none, none⟩, ge)
  else
    let ft := lastFeature a.feature none s.features
    let fe := if ft = none then [(Code.feature, a.me.id)] else []
    (resolveMain s T a.me.id a.main).map fun m => (s, ⟨a.me, a.units, g, ft, m.1⟩, ge ++ fe ++ m.2)

/-- `ResolveAllReferences`, GDTFManager.cpp:8502-8512, on a fixture whose nodes were read; `fresh` is the first identity for
new objects. The result with the parsing errors, or `none` for undefined behaviour. -/
def resolve (T : Table Named) (fresh : Nat) (W : Doc) : Option (Mem × List Err) :=
  let f := W.pool
  let g := resolveGeos f T W.geos
  (thread (resolveMode f T) ⟨f.attrState T, fresh, [], W.features⟩ W.modes).bind fun ms =>
  (thread (masterMode T) () ms.2.1).bind fun mm =>
  let ps := W.persons.map (resolvePerson (W.modes.map (·.me)))
  (thread (resolveAttr T W.groups) ms.1 W.attrs).map fun as =>
  ({ groups := W.groups, features := ms.1.features, attrs := as.2.1 ++ ms.1.created
     wheels := W.wheels.map fun w => (w.1, w.2.map (opt (f.getByRef T .filter)))
     models := W.models, emitters := W.emitters, filters := W.filters, connectors := W.connectors, spaces := W.spaces
     gamuts := W.gamuts, profiles := W.profiles, geos := g.1, modes := mm.2.1, persons := ps.map Prod.fst },
    g.2 ++ ms.2.2 ++ mm.2.2 ++ ps.flatMap Prod.snd ++ as.2.2)

end Verif.Link
