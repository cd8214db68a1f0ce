import Verif.Link.Model

/-!
# Specification: consistent fixtures and their links
-/

namespace Verif.Link.Spec

open Lookup Lookup.Spec

/-- The names of the list are not empty and pairwise different up to case. -/
def Unique (l : List Named) : Prop := (∀ x ∈ l, x.ref ≠ []) ∧ l.Pairwise (fun x y => ¬ SameName x.ref y.ref)

/-- The link is null or leads to an element of the list. -/
def To (l : List Named) (p : Ptr) : Prop := ∀ x, p = some x → x ∈ l

/-- The link leads to an element of the list. -/
def Into (l : List Named) (p : Ptr) : Prop := ∃ x ∈ l, p = some x

/-- All geometries with the link to the model and the link of the particular kind, in document order. -/
def nodes {L : Type} : List (Geo L) → List (Named × L × Own L)
  | [] => []
  | .node me model own kids :: rest => (me, model, own) :: (nodes kids ++ nodes rest)

/-- All geometries. -/
def geometries {L C M : Type} (F : Fx L C M) : List Named := (nodes F.geos).map (·.1)

/-- The geometries that are not inside another geometry. -/
def topGeometries {L C M : Type} (F : Fx L C M) : List Named := F.geos.map (fun g => match g with | .node me _ _ _ => me)

/-- The features of all groups; a feature is named by its group and its own name. -/
def features {L C M : Type} (F : Fx L C M) : List Named :=
  F.features.flatMap (fun g => g.2.map (fun x => ⟨x.id, g.1 ++ lit "." ++ x.ref⟩))

/-- The identities of the functions of a channel. -/
def fnsOf {L C M : Type} (c : Chan L C M) : List Nat := c.logicals.flatMap (fun l => l.fns.map (·.id))

/-- The link to a channel or function is null or leads to one of the given ones. -/
def ToId (ids : List Nat) (p : Option Nat) : Prop := ∀ i, p = some i → i ∈ ids

/-- The link of a geometry leads to an element of the right list; a geometry reference has a target. -/
def OwnOk (F : Mem) : Own Ptr → Prop
  | .plain => True
  | .reference p => Into (geometries F) p
  | .lamp p => To F.emitters p
  | .laser p => To F.emitters p
  | .wiring ps => ∀ p ∈ ps, To (geometries F) p
  | .support p => To (geometries F) p

/-- The links of a function to elements of the fixture. -/
structure FnOk (F : Mem) (x : Func Ptr Master) : Prop where
  attr : Into (F.attrs.map (·.me)) x.attr
  wheel : To (F.wheels.map (·.1)) x.wheel
  emitter : To F.emitters x.emitter
  filter : To F.filters x.filter
  space : To F.spaces x.space
  gamut : To F.gamuts x.gamut
  profile : To F.profiles x.profile
  subs : ∀ s ∈ x.subs, To (F.attrs.flatMap (·.units)) s.unit ∧ To F.profiles s.profile

/-- The links of a channel, and its generated name: not generated yet, or geometry, underscore, first attribute. -/
structure ChanOk (F : Mem) (c : Chan Ptr (Option Nat) Master) : Prop where
  geom : Into (geometries F) c.geom
  logicals : c.logicals ≠ []
  attrs : ∀ l ∈ c.logicals, Into (F.attrs.map (·.me)) l.attr
  fns : ∀ l ∈ c.logicals, ∀ x ∈ l.fns, FnOk F x
  initial : ∃ i ∈ fnsOf c, c.initial = some i
  name : c.name = [] ∨ c.name = channelText c.toCh
  names : ∀ l ∈ c.logicals, l.name = [] ∨ l.name = text l.attr

/-- The links of a mode. Names in the mode are unique and without dots. -/
structure ModeOk (F : Mem) (m : Mode Ptr (Option Nat) Master) : Prop where
  geom : Into (topGeometries F) m.geom
  chans : ∀ c ∈ m.chans, ChanOk F c
  unique : UniqueNames (m.chans.map Chan.toCh)
  fnIds : (m.chans.flatMap fnsOf).Nodup
  masters : ∀ c ∈ m.chans, ∀ l ∈ c.logicals, ∀ x ∈ l.fns,
    (∀ i, x.master = .channel i → i ∈ m.chans.map (·.id)) ∧ (∀ i, x.master = .function i → i ∈ m.chans.flatMap fnsOf)
  relations : ∀ r ∈ m.relations, ToId (m.chans.map (·.id)) r.master ∧ ToId (m.chans.flatMap fnsOf) r.slave
  macros : ∀ k ∈ m.macros, ToId (m.chans.flatMap fnsOf) k.fn ∧
    (∀ v ∈ k.dmx, ∃ i ∈ m.chans.map (·.id), v.2 = some i) ∧ (∀ v ∈ k.visual, ∃ i ∈ m.chans.flatMap fnsOf, v = some i)

/-- A consistent fixture: unique names, all links lead to elements of the fixture, and the links a description must have are
not null. An attribute with a main attribute has a feature. -/
structure Consistent (F : Mem) : Prop where
  groups : Unique F.groups
  features : Unique (features F)
  attrs : Unique (F.attrs.map (·.me))
  units : Unique (F.attrs.flatMap (·.units))
  wheels : Unique (F.wheels.map (·.1))
  models : Unique F.models
  emitters : Unique F.emitters
  filters : Unique F.filters
  spaces : Unique F.spaces
  gamuts : Unique F.gamuts
  profiles : Unique F.profiles
  geometries : Unique (geometries F)
  modes : Unique (F.modes.map (·.me))
  attrLinks : ∀ a ∈ F.attrs, To F.groups a.group ∧ To (Spec.features F) a.feature ∧ To (F.attrs.map (·.me)) a.main ∧
    (a.feature = none → a.main = none)
  slotLinks : ∀ w ∈ F.wheels, ∀ p ∈ w.2, To F.filters p
  geometryLinks : ∀ n ∈ nodes F.geos, To F.models n.2.1 ∧ OwnOk F n.2.2
  modeLinks : ∀ m ∈ F.modes, ModeOk F m
  personLinks : ∀ p ∈ F.persons, Into (F.modes.map (·.me)) p.2

/-! ## The same fixture up to generated names -/

/-- A channel without its generated name, the names of its logical channels and the names of its functions. -/
def unnamed {L C M : Type} (c : Chan L C M) : Chan L C M :=
  { c with name := [], logicals := c.logicals.map (fun l => { l with name := [], fns := l.fns.map (fun x => { x with name := [] }) }) }

/-- The fixture without the names of channels, logical channels and functions: elements and links only. -/
def links {L C M : Type} (F : Fx L C M) : Fx L C M :=
  { F with modes := F.modes.map (fun m => { m with chans := m.chans.map unnamed }) }

end Verif.Link.Spec
