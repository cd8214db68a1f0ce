import Verif.Link.Modes

/-!
# What is written for a consistent fixture, and what is resolved from it
-/

namespace Verif.Link

open Lookup Lookup.Spec Spec

/-! ## What is written -/

/-- The attribute for a mode master. -/
def masterText (K : List Ch) (x : Master) : Txt :=
  match x with
  | .channel i => (chAttr K (some i)).getD []
  | .function i => (fnAttr K (some i)).getD []
  | .unresolved => []

def docFn (K : List Ch) (x : Func Ptr Master) : Func Txt Txt :=
  ⟨x.id, x.name, text x.attr, text x.wheel, text x.emitter, text x.filter, text x.space, text x.gamut, text x.profile,
    masterText K x.master, x.subs.map writeSub⟩

def docLogical (K : List Ch) (l : Logical Ptr Master) : Logical Txt Txt := ⟨l.id, [], text l.attr, l.fns.map (docFn K)⟩

def docChan (K : List Ch) (c : Chan Ptr (Option Nat) Master) : Chan Txt Txt Txt :=
  ⟨c.id, [], text c.geom, (fnAttr K c.initial).getD [], c.logicals.map (docLogical K)⟩

def docRel (K : List Ch) (r : Rel (Option Nat)) : Rel Txt := ⟨(chAttr K r.master).getD [], (fnAttr K r.slave).getD []⟩

def docMacro (K : List Ch) (k : Macro (Option Nat)) : Macro Txt :=
  ⟨(fnAttr K k.fn).getD [], k.dmx.map (fun v => (v.1, (chAttr K v.2).getD [])), k.visual.map (fun v => (fnAttr K v).getD [])⟩

def docMode (m : Mode Ptr (Option Nat) Master) : Mode Txt Txt Txt :=
  let K := m.chans.map Chan.toCh
  ⟨m.me, text m.geom, m.chans.map (docChan K), m.relations.map (docRel K), m.macros.map (docMacro K)⟩

def doc (F : Mem) : Doc :=
  { groups := F.groups, features := F.features, attrs := F.attrs.map writeAttr
    wheels := F.wheels.map fun w => (w.1, w.2.map text)
    models := F.models, emitters := F.emitters, filters := F.filters, connectors := F.connectors, spaces := F.spaces
    gamuts := F.gamuts, profiles := F.profiles, geos := writeGeos F.geos, modes := F.modes.map docMode
    persons := F.persons.map fun p => (p.1, text p.2) }

theorem some_getD {α : Type} {o : Option α} {d : α} (h : o.isSome = true) : o = some (o.getD d) := by
  cases o <;> simp_all

theorem fnAttr_isSome {F : Mem} {m : Mode Ptr (Option Nat) Master} (h : ModeOk F m) {p : Option Nat}
    (hp : ToId (m.chans.flatMap fnsOf) p) : (fnAttr (m.chans.map Chan.toCh) p).isSome = true := by
  cases p with
  | none => rfl
  | some i =>
    obtain ⟨n, -, -, hn⟩ := fnAttr_ok h i (hp i rfl)
    rw [hn]; rfl

theorem chAttr_isSome {F : Mem} {m : Mode Ptr (Option Nat) Master} (h : ModeOk F m) {p : Option Nat}
    (hp : ToId (m.chans.map (·.id)) p) : (chAttr (m.chans.map Chan.toCh) p).isSome = true := by
  cases p with
  | none => rfl
  | some i =>
    obtain ⟨n, -, -, hn⟩ := chAttr_ok h i (hp i rfl)
    rw [hn]; rfl

theorem writeMode_ok {F : Mem} {m : Mode Ptr (Option Nat) Master} (h : ModeOk F m) : writeMode m = some (docMode m) := by
  have hfn : ∀ c ∈ m.chans, ∀ l ∈ c.logicals, ∀ x ∈ l.fns,
      writeFn (m.chans.map Chan.toCh) x = some (docFn (m.chans.map Chan.toCh) x) := by
    intro c hc l hl x hx
    obtain ⟨h1, h2⟩ := h.masters c hc l hl x hx
    unfold writeFn docFn masterText
    cases hm : x.master with
    | channel i =>
      have := chAttr_isSome h (p := some i) (by intro j hj; cases hj; exact h1 i hm)
      simp only
      rw [some_getD (d := []) this]
      rfl
    | function i =>
      have := fnAttr_isSome h (p := some i) (by intro j hj; cases hj; exact h2 i hm)
      simp only
      rw [some_getD (d := []) this]
      rfl
    | unresolved => rfl
  have hch : ∀ c ∈ m.chans, writeChan (m.chans.map Chan.toCh) c = some (docChan (m.chans.map Chan.toCh) c) := by
    intro c hc
    obtain ⟨i, t, -, ht, -, -⟩ := initial_ok h hc
    unfold writeChan docChan
    rw [ht, Option.bind_some, mapO_of (h := docLogical (m.chans.map Chan.toCh)) c.logicals]
    · rfl
    · intro l hl
      unfold writeLogical
      rw [mapO_of l.fns (hfn c hc l hl)]
      rfl
  have hrel : ∀ r ∈ m.relations, writeRel (m.chans.map Chan.toCh) r = some (docRel (m.chans.map Chan.toCh) r) := by
    intro r hr
    obtain ⟨h1, h2⟩ := h.relations r hr
    unfold writeRel docRel
    rw [some_getD (d := []) (chAttr_isSome h h1), some_getD (d := []) (fnAttr_isSome h h2)]
    rfl
  have hmac : ∀ k ∈ m.macros, writeMacro (m.chans.map Chan.toCh) k = some (docMacro (m.chans.map Chan.toCh) k) := by
    intro k hk
    obtain ⟨h1, h2, h3⟩ := h.macros k hk
    unfold writeMacro docMacro
    rw [some_getD (d := []) (fnAttr_isSome h h1), Option.bind_some,
      mapO_of (h := fun v => (v.1, (chAttr (m.chans.map Chan.toCh) v.2).getD [])) k.dmx, Option.bind_some,
      mapO_of (h := fun v => (fnAttr (m.chans.map Chan.toCh) v).getD []) k.visual]
    · rfl
    · intro v hv
      obtain ⟨i, hi, rfl⟩ := h3 v hv
      rw [if_neg (by simp)]
      exact some_getD (fnAttr_isSome h (by intro j hj; cases hj; exact hi))
    · intro v hv
      obtain ⟨i, hi, hve⟩ := h2 v hv
      rw [hve, if_neg (by simp)]
      rw [some_getD (d := []) (chAttr_isSome h (p := some i) (by intro j hj; cases hj; exact hi))]
      rfl
  unfold writeMode docMode
  simp only
  rw [mapO_of m.chans hch, Option.bind_some, mapO_of m.relations hrel, Option.bind_some, mapO_of m.macros hmac]
  rfl

theorem write_ok {F : Mem} (h : Consistent F) : write F = some (doc F) := by
  unfold write doc
  rw [mapO_of F.modes (fun m hm => writeMode_ok (h.modeLinks m hm)), Option.bind_some,
    mapO_of (h := fun p => (p.1, text p.2)) F.persons]
  · rfl
  · intro p hp
    obtain ⟨x, -, hx⟩ := h.personLinks p hp
    rw [hx]
    rfl

/-! ## The arrays are the same -/

theorem pool_doc (F : Mem) : (doc F).pool = F.pool := by
  unfold Fx.pool doc
  simp only [List.map_map, trees_write]
  rfl

theorem pool_attrs {L C M : Type} (F : Fx L C M) : F.pool.attributes.map Prod.fst = F.attrs.map (·.me) := by
  simp [Fx.pool]

theorem pool_units {L C M : Type} (F : Fx L C M) : F.pool.elements .subUnit = F.attrs.flatMap (·.units) := by
  simp [Fx.pool, Fixture.elements, List.flatMap_map]

theorem pool_geos {L C M : Type} (F : Fx L C M) : documentOrder F.pool.geometries = geometries F := documentOrder_trees F.geos

/-! ## Resolving the functions and channels -/

/-- A function whose mode master is still a text. -/
def midFn (K : List Ch) (x : Func Ptr Master) : Func Ptr Txt :=
  ⟨x.id, x.name, x.attr, x.wheel, x.emitter, x.filter, x.space, x.gamut, x.profile, masterText K x.master, x.subs⟩

def midLogical (K : List Ch) (l : Logical Ptr Master) : Logical Ptr Txt := ⟨l.id, [], l.attr, l.fns.map (midFn K)⟩

def midChan (K : List Ch) (c : Chan Ptr (Option Nat) Master) : Chan Ptr (Option Nat) Txt :=
  ⟨c.id, [], c.geom, c.initial, c.logicals.map (midLogical K)⟩

theorem midChan_toCh (K : List Ch) (c : Chan Ptr (Option Nat) Master) : (midChan K c).toCh = (fresh c).toCh := by
  unfold midChan fresh Chan.toCh
  simp only [List.map_map]
  congr 1
  apply List.map_congr_left
  intro l _
  simp only [Function.comp_apply, midLogical, Logical.toLc, List.map_map]
  rfl

theorem getAttr_ok {F : Mem} (h : Consistent F) (T : Table Named) (s : St) (hs : s.attrs = F.pool.attrState T) {p : Ptr}
    (hp : Into (F.attrs.map (·.me)) p) : s.getAttr T (text p) = (s, p) := by
  rw [← pool_attrs] at hp
  exact getAttr_initial F.pool T (by rw [pool_attrs]; exact h.attrs) s hs hp

theorem resolveFn_ok {F : Mem} (h : Consistent F) (T : Table Named) (s : St) (hs : s.attrs = F.pool.attrState T) (K : List Ch)
    (x : Func Ptr Master) (hx : FnOk F x) : resolveFn F.pool T s (docFn K x) = some (s, midFn K x, []) := by
  unfold resolveFn docFn midFn
  simp only
  rw [getAttr_ok h T s hs hx.attr]
  simp only [into_ne hx.attr, if_false]
  have e : ∀ k t, F.pool.getByRef T k t = scan (F.pool.elements k) t := fun k t => getByRef_eq F.pool T k t
  rw [opt_text h.wheels hx.wheel (e .wheel), opt_text h.emitters hx.emitter (e .emitter),
    opt_text h.filters hx.filter (e .filter), opt_text h.spaces hx.space (e .colorSpace),
    opt_text h.gamuts hx.gamut (e .gamut), opt_text h.profiles hx.profile (e .profile)]
  have : (x.subs.map writeSub).map (resolveSub F.pool T) = x.subs := by
    rw [List.map_map]
    refine (List.map_congr_left (fun u hu => ?_)).trans (List.map_id _)
    obtain ⟨h1, h2⟩ := hx.subs u hu
    simp only [Function.comp_apply, writeSub, resolveSub]
    rw [opt_text h.units h1 (fun t => by rw [e, pool_units]), opt_text h.profiles h2 (e .profile)]
    rfl
  rw [this]

theorem resolveChan_ok {F : Mem} (h : Consistent F) (T : Table Named) (s : St) (hs : s.attrs = F.pool.attrState T)
    {m : Mode Ptr (Option Nat) Master} (hm : ModeOk F m) (c : Chan Ptr (Option Nat) Master) (hc : c ∈ m.chans) :
    resolveChan F.pool T s (docChan (m.chans.map Chan.toCh) c) = some (s, midChan (m.chans.map Chan.toCh) c, []) := by
  have hok := hm.chans c hc
  obtain ⟨i, t, hi, ht, htne, hscan⟩ := initial_ok hm hc
  have hg : F.pool.channelGeometry T (text c.geom) = c.geom :=
    channelGeometry_into (by rw [pool_geos]; exact h.geometries) (by rw [pool_geos]; exact hok.geom)
  have hl : thread (resolveLogical F.pool T) s (c.logicals.map (docLogical (m.chans.map Chan.toCh))) =
      some (s, c.logicals.map (midLogical (m.chans.map Chan.toCh)), []) := by
    refine thread_map s c.logicals (fun l hl => ?_)
    unfold resolveLogical docLogical midLogical
    simp only
    rw [getAttr_ok h T s hs (hok.attrs l hl)]
    simp only [into_ne (hok.attrs l hl), if_false]
    rw [thread_map (h := midFn (m.chans.map Chan.toCh)) s l.fns
      (fun x hx => resolveFn_ok h T s hs _ x (hok.fns l hl x hx))]
    rfl
  unfold resolveChan docChan midChan
  simp only
  rw [hg, hl, Option.bind_some, ht]
  have hi' : resolveInitial ⟨c.id, [], c.geom, t, c.logicals.map (midLogical (m.chans.map Chan.toCh))⟩ = some (some i, []) := by
    unfold resolveInitial
    rw [if_pos htne]
    have e : (⟨c.id, [], c.geom, t, c.logicals.map (midLogical (m.chans.map Chan.toCh))⟩ : Chan Ptr Txt Txt).toCh =
        (fresh c).toCh := midChan_toCh (m.chans.map Chan.toCh) c
    rw [e]
    simp only [hscan, Option.map_some]
  simp only [Option.getD_some]
  rw [hi']
  simp only [into_ne hok.geom, if_false, Option.map_some, hi, List.append_nil]

/-! ## Mode masters -/

/-- The mode master a text stands for. -/
def masterOf (T : Table Named) (L : Loaded) (t : Txt) : Master :=
  if t = [] then .unresolved else (L.modeMaster T t).getD .unresolved

/-- The text is empty or found. -/
def MasterOk (T : Table Named) (L : Loaded) (t : Txt) : Prop :=
  t = [] ∨ ∃ r, L.modeMaster T t = some r ∧ r ≠ .unresolved

def endFn (T : Table Named) (L : Loaded) (x : Func Ptr Txt) : Func Ptr Master :=
  ⟨x.id, x.name, x.attr, x.wheel, x.emitter, x.filter, x.space, x.gamut, x.profile, masterOf T L x.master, x.subs⟩

def endLogical (T : Table Named) (L : Loaded) (l : Logical Ptr Txt) : Logical Ptr Master :=
  ⟨l.id, l.name, l.attr, l.fns.map (endFn T L)⟩

def endChan (T : Table Named) (L : Loaded) (c : Chan Ptr (Option Nat) Txt) : Chan Ptr (Option Nat) Master :=
  ⟨c.id, c.name, c.geom, c.initial, c.logicals.map (endLogical T L)⟩

theorem masterFn_ok (T : Table Named) (L : Loaded) (c : Nat) (x : Func Ptr Txt) (h : MasterOk T L x.master) :
    masterFn T L c () x = some ((), endFn T L x, []) := by
  unfold masterFn endFn masterOf
  rcases h with h | ⟨r, hr, hne⟩
  · simp [h]
  · by_cases hn : x.master = []
    · simp [hn]
    · simp [hn, hr, hne]

theorem masterChan_ok (T : Table Named) (L : Loaded) (c : Chan Ptr (Option Nat) Txt)
    (h : ∀ l ∈ c.logicals, ∀ x ∈ l.fns, MasterOk T L x.master) : masterChan T L () c = some ((), endChan T L c, []) := by
  unfold masterChan endChan
  rw [thread_of (h := endLogical T L) () c.logicals]
  · rfl
  · intro l hl
    unfold masterLogical endLogical
    rw [thread_of (h := endFn T L) () l.fns (fun x hx => masterFn_ok T L c.id x (h l hl x hx))]
    rfl

theorem nameFuncs_mem {M : Type} (l : List (Func Ptr M)) : ∀ (n : Nat) (y : Func Ptr M), y ∈ nameFuncs n l →
    ∃ x ∈ l, y.master = x.master := by
  induction l with
  | nil => intro n y hy; simp [nameFuncs] at hy
  | cons f l ih =>
    intro n y hy
    have step : ∀ (z : Func Ptr M) (k : Nat), z.master = f.master → y ∈ z :: nameFuncs k l →
        ∃ x ∈ f :: l, y.master = x.master := by
      intro z k hz hy
      rcases List.mem_cons.1 hy with rfl | hy
      · exact ⟨f, List.mem_cons_self, hz⟩
      · obtain ⟨x, hx, hxe⟩ := ih k y hy
        exact ⟨x, List.mem_cons_of_mem _ hx, hxe⟩
    rw [nameFuncs] at hy
    split at hy
    · split at hy
      · refine step _ _ ?_ hy; rfl
      · refine step _ _ ?_ hy; rfl
    · refine step _ _ ?_ hy; rfl

theorem nameFuncs_end (T : Table Named) (L : Loaded) (l : List (Func Ptr Txt)) : ∀ (n : Nat),
    (nameFuncs n l).map (endFn T L) = nameFuncs n (l.map (endFn T L)) := by
  induction l with
  | nil => intro n; rfl
  | cons f l ih =>
    intro n
    rw [List.map_cons, nameFuncs, nameFuncs]
    have e1 : (endFn T L f).name = f.name := rfl
    have e2 : (endFn T L f).attr = f.attr := rfl
    rw [e1, e2]
    by_cases hn : f.name = []
    · rw [if_pos hn, if_pos hn]
      cases f.attr with
      | none => simp only [List.map_cons, ih]
      | some a => simp only [List.map_cons, ih]; rfl
    · rw [if_neg hn, if_neg hn, List.map_cons, ih]

theorem nameLogical_end (T : Table Named) (L : Loaded) (l : Logical Ptr Txt) :
    endLogical T L (nameLogical l) = nameLogical (endLogical T L l) := by
  unfold nameLogical
  have e : (endLogical T L l).attr = l.attr := rfl
  rw [e]
  cases ha : l.attr with
  | none => rfl
  | some a =>
    simp only [endLogical, ha]
    rw [nameFuncs_end]

theorem findSome_end (T : Table Named) (L : Loaded) (ls : List (Logical Ptr Txt)) :
    (ls.map (endLogical T L)).findSome? (·.attr) = ls.findSome? (·.attr) := by
  rw [List.findSome?_map]
  rfl

theorem nameChan_end (T : Table Named) (L : Loaded) (c : Chan Ptr (Option Nat) Txt) :
    endChan T L (nameChan c) = nameChan (endChan T L c) := by
  unfold nameChan
  have e : (endChan T L c).geom = c.geom := rfl
  have e2 : (endChan T L c).logicals.findSome? (·.attr) = c.logicals.findSome? (·.attr) := findSome_end T L c.logicals
  have e3 : (c.logicals.map nameLogical).map (endLogical T L) = (c.logicals.map (endLogical T L)).map nameLogical := by
    rw [List.map_map, List.map_map]
    exact List.map_congr_left (fun l _ => nameLogical_end T L l)
  rw [e, e2]
  cases hg : c.geom with
  | none => rfl
  | some g =>
    simp only
    cases c.logicals.findSome? (·.attr) with
    | none => simp only [endChan, e3, hg]
    | some a => simp only [endChan, e3, hg]

theorem nameChan_masters {C M : Type} (c : Chan Ptr C M) : ∀ l ∈ (nameChan c).logicals, ∀ y ∈ l.fns,
    ∃ k ∈ c.logicals, ∃ x ∈ k.fns, y.master = x.master := by
  have key : ∀ l ∈ c.logicals.map nameLogical, ∀ y ∈ l.fns, ∃ k ∈ c.logicals, ∃ x ∈ k.fns, y.master = x.master := by
    intro l hl y hy
    obtain ⟨k, hk, rfl⟩ := List.mem_map.1 hl
    unfold nameLogical at hy
    split at hy
    · exact ⟨k, hk, y, hy, rfl⟩
    · obtain ⟨x, hx, hxe⟩ := nameFuncs_mem k.fns 1 y hy
      exact ⟨k, hk, x, hx, hxe⟩
  intro l hl y hy
  unfold nameChan at hl
  split at hl
  · exact ⟨l, hl, y, hy, rfl⟩
  · split at hl
    · exact key l hl y hy
    · exact key l hl y hy

theorem unnamed_name {C M : Type} (c : Chan Ptr C M) : unnamed (nameChan c) = unnamed c := by
  have kf : ∀ (l : List (Func Ptr M)) (n : Nat), (nameFuncs n l).map (fun x => ({ x with name := [] } : Func Ptr M)) =
      l.map (fun x => { x with name := [] }) := by
    intro l
    induction l with
    | nil => intro n; rfl
    | cons f l ih =>
      intro n
      rw [nameFuncs]
      split
      · split
        · simp only [List.map_cons, ih]
        · simp only [List.map_cons, ih]
      · simp only [List.map_cons, ih]
  have kl : ∀ l : Logical Ptr M, ({ nameLogical l with name := [], fns := (nameLogical l).fns.map (fun x => { x with name := [] }) } : Logical Ptr M) =
      { l with name := [], fns := l.fns.map (fun x => { x with name := [] }) } := by
    intro l
    unfold nameLogical
    split
    · rfl
    · simp only [kf]
  unfold nameChan
  split
  · rfl
  · split
    · simp only [unnamed, List.map_map]
      congr 1
      exact List.map_congr_left (fun l _ => kl l)
    · simp only [unnamed, List.map_map]
      congr 1
      exact List.map_congr_left (fun l _ => kl l)

theorem unnamed_fresh {C M : Type} (c : Chan Ptr C M) : unnamed (fresh c) = unnamed c := by
  simp only [unnamed, fresh, List.map_map]
  rfl

/-! ## Modes -/

/-- The mode after reading. -/
def backMode (m : Mode Ptr (Option Nat) Master) : Mode Ptr (Option Nat) Master :=
  { m with chans := m.chans.map (fun c => nameChan (fresh c)) }

theorem masterText_ok {F : Mem} {m : Mode Ptr (Option Nat) Master} (h : ModeOk F m) (T : Table Named) (L : Loaded)
    (hf : ∀ n ∈ modeFns m, L.modeMaster T n.ref = some (.function n.id))
    (hc : ∀ c ∈ m.chans, L.modeMaster T (channelText c.toCh) = some (.channel c.id)) (x : Master)
    (h1 : ∀ i, x = .channel i → i ∈ m.chans.map (·.id)) (h2 : ∀ i, x = .function i → i ∈ m.chans.flatMap fnsOf) :
    MasterOk T L (masterText (m.chans.map Chan.toCh) x) ∧ masterOf T L (masterText (m.chans.map Chan.toCh) x) = x := by
  cases x with
  | channel i =>
    obtain ⟨c, hcm, hci, hct⟩ := chAttr_ok h i (h1 i rfl)
    have e := hc c hcm
    unfold masterText MasterOk masterOf
    simp only [hct, Option.getD_some, e, channelText_ne, if_false, hci]
    exact ⟨Or.inr ⟨_, rfl, by simp⟩, trivial⟩
  | function i =>
    obtain ⟨n, hn, hni, hnt⟩ := fnAttr_ok h i (h2 i rfl)
    have e := hf n hn
    unfold masterText MasterOk masterOf
    simp only [hnt, Option.getD_some, e, modeFns_ne n hn, if_false, hni]
    exact ⟨Or.inr ⟨_, rfl, by simp⟩, trivial⟩
  | unresolved => exact ⟨Or.inl rfl, rfl⟩

theorem getFn_back {F : Mem} {m : Mode Ptr (Option Nat) Master} (h : ModeOk F m) (T : Table Named) (L : Loaded)
    (hf : ∀ n ∈ modeFns m, L.getFunction T n.ref = some (some n.id)) (he : L.getFunction T [] = some none)
    {p : Option Nat} (hp : ToId (m.chans.flatMap fnsOf) p) :
    L.getFunction T ((fnAttr (m.chans.map Chan.toCh) p).getD []) = some p := by
  cases p with
  | none => exact he
  | some i =>
    obtain ⟨n, hn, hni, hnt⟩ := fnAttr_ok h i (hp i rfl)
    rw [hnt, Option.getD_some, hf n hn, hni]

theorem getCh_back {F : Mem} {m : Mode Ptr (Option Nat) Master} (h : ModeOk F m) (T : Table Named) (L : Loaded)
    (hc : ∀ c ∈ m.chans, L.getChannel T (channelText c.toCh) = some (some c.id)) (he : L.getChannel T [] = some none)
    {p : Option Nat} (hp : ToId (m.chans.map (·.id)) p) :
    L.getChannel T ((chAttr (m.chans.map Chan.toCh) p).getD []) = some p := by
  cases p with
  | none => exact he
  | some i =>
    obtain ⟨c, hcm, hci, hct⟩ := chAttr_ok h i (hp i rfl)
    rw [hct, Option.getD_some, hc c hcm, hci]

theorem resolveMode_ok {F : Mem} (h : Consistent F) (T : Table Named) (s : St) (hs : s.attrs = F.pool.attrState T)
    {m : Mode Ptr (Option Nat) Master} (hm : ModeOk F m) : ∃ r, resolveMode F.pool T s (docMode m) = some (s, r, []) ∧
      masterMode T () r = some ((), backMode m, []) := by
  obtain ⟨L, hL, hfn, hch, hce, hfe⟩ := load_ok hm T
  have hg : F.pool.modeGeometry (text m.geom) = m.geom := by
    refine modeGeometry_into (l := topGeometries F) (top_trees F.geos) ?_ hm.geom
    refine ⟨?_, ?_⟩
    · intro x hx
      refine h.geometries.1 x ?_
      obtain ⟨g, hgm, rfl⟩ := List.mem_map.1 hx
      clear hx
      unfold geometries
      generalize F.geos = gs at hgm
      induction gs with
      | nil => cases hgm
      | cons a gs ih =>
        cases a with
        | node me mo ow kids =>
          rw [nodes]
          rcases List.mem_cons.1 hgm with rfl | h2
          · simp
          · have := ih h2
            simp only [List.map_cons, List.map_append, List.mem_cons, List.mem_append]
            exact Or.inr (Or.inr this)
    · have hsub : (topGeometries F).Sublist (geometries F) := by
        unfold topGeometries geometries
        generalize F.geos = gs
        induction gs with
        | nil => simp [nodes]
        | cons a gs ih =>
          cases a with
          | node me mo ow kids =>
            rw [nodes]
            simp only [List.map_cons, List.map_append]
            exact List.Sublist.cons_cons _ (List.Sublist.trans ih (List.sublist_append_right _ _))
      exact List.Pairwise.sublist hsub h.geometries.2
  have hchans : thread (resolveChan F.pool T) s (m.chans.map (docChan (m.chans.map Chan.toCh))) =
      some (s, m.chans.map (midChan (m.chans.map Chan.toCh)), []) :=
    thread_map s m.chans (fun c hc => resolveChan_ok h T s hs hm c hc)
  have hload : load T ((m.chans.map (midChan (m.chans.map Chan.toCh))).map Chan.toCh) = some L := by
    rw [← hL, List.map_map]
    congr 1
    exact List.map_congr_left (fun c _ => midChan_toCh _ c)
  have hrel : thread (resolveRel T L) () (m.relations.map (docRel (m.chans.map Chan.toCh))) = some ((), m.relations, []) := by
    have := thread_map (g := resolveRel T L) (h := id) (u := docRel (m.chans.map Chan.toCh)) () m.relations (fun r hr => by
      obtain ⟨h1, h2⟩ := hm.relations r hr
      unfold resolveRel docRel
      simp only
      rw [getCh_back hm T L (fun c hc => (hch c hc).1) hce h1, Option.bind_some,
        getFn_back hm T L (fun n hn => (hfn n hn).1) hfe h2]
      rfl)
    rw [this, List.map_id]
  have hmac : thread (resolveMacro T L) () (m.macros.map (docMacro (m.chans.map Chan.toCh))) = some ((), m.macros, []) := by
    have := thread_map (g := resolveMacro T L) (h := id) (u := docMacro (m.chans.map Chan.toCh)) () m.macros (fun k hk => by
      obtain ⟨h1, h2, h3⟩ := hm.macros k hk
      have hd : thread (resolveDmxValue T L) () (k.dmx.map (fun v => (v.1, (chAttr (m.chans.map Chan.toCh) v.2).getD []))) =
          some ((), k.dmx, []) := by
        have := thread_map (g := resolveDmxValue T L) (h := id)
          (u := fun v : Nat × Option Nat => (v.1, (chAttr (m.chans.map Chan.toCh) v.2).getD [])) () k.dmx (fun v hv => by
            obtain ⟨i, hi, hve⟩ := h2 v hv
            unfold resolveDmxValue
            simp only
            rw [getCh_back hm T L (fun c hc => (hch c hc).1) hce (p := v.2) (by intro j hj; rw [hve] at hj; cases hj; exact hi)]
            simp only [Option.map_some, hve, reduceCtorEq, if_false, id]
            rw [← hve])
        rw [this, List.map_id]
      have hv : thread (resolveVisualValue T L) () (k.visual.map (fun v => (fnAttr (m.chans.map Chan.toCh) v).getD [])) =
          some ((), k.visual, []) := by
        have := thread_map (g := resolveVisualValue T L) (h := id)
          (u := fun v : Option Nat => (fnAttr (m.chans.map Chan.toCh) v).getD []) () k.visual (fun v hv => by
            obtain ⟨i, hi, rfl⟩ := h3 v hv
            unfold resolveVisualValue
            rw [getFn_back hm T L (fun n hn => (hfn n hn).1) hfe (p := some i) (by intro j hj; cases hj; exact hi)]
            rfl)
        rw [this, List.map_id]
      have hf : (if (fnAttr (m.chans.map Chan.toCh) k.fn).getD [] = [] then some none
          else L.getFunction T ((fnAttr (m.chans.map Chan.toCh) k.fn).getD [])) = some k.fn := by
        split
        · cases hkf : k.fn with
          | none => rfl
          | some i =>
            exfalso
            obtain ⟨n, hn, hni, hnt⟩ := fnAttr_ok hm i (h1 i hkf)
            rename_i h0
            rw [hkf, hnt] at h0
            exact modeFns_ne n hn h0
        · exact getFn_back hm T L (fun n hn => (hfn n hn).1) hfe h1
      unfold resolveMacro docMacro
      simp only
      rw [hf, Option.bind_some, hd, Option.bind_some, hv]
      rfl)
    rw [this, List.map_id]
  have hinto := into_ne hm.geom
  refine ⟨(⟨m.me, m.geom, (m.chans.map (midChan (m.chans.map Chan.toCh))).map nameChan, m.relations, m.macros⟩, L), ?_, ?_⟩
  · unfold resolveMode docMode
    simp only
    rw [hg, hchans, Option.bind_some]
    simp only
    rw [hload, Option.bind_some, hrel, Option.bind_some, hmac]
    simp only [hinto, if_false, Option.map_some, List.append_nil]
  · unfold masterMode
    have hmm : ∀ c ∈ m.chans, ∀ l ∈ c.logicals, ∀ x ∈ l.fns,
        MasterOk T L (masterText (m.chans.map Chan.toCh) x.master) ∧
          masterOf T L (masterText (m.chans.map Chan.toCh) x.master) = x.master := by
      intro c hc l hl x hx
      obtain ⟨h1, h2⟩ := hm.masters c hc l hl x hx
      exact masterText_ok hm T L (fun n hn => (hfn n hn).2) (fun c hc => (hch c hc).2) x.master h1 h2
    simp only [List.map_map]
    rw [thread_map (h := fun c => nameChan (fresh c)) () m.chans]
    · rfl
    · intro c hc
      rw [masterChan_ok]
      · simp only [Function.comp_apply]
        rw [nameChan_end]
        congr 4
        unfold endChan midChan fresh
        simp only [List.map_map]
        congr 1
        apply List.map_congr_left
        intro l hl
        simp only [Function.comp_apply, endLogical, midLogical, List.map_map]
        congr 1
        refine (List.map_congr_left (fun x hx => ?_)).trans (List.map_id _)
        simp only [Function.comp_apply, endFn, midFn]
        rw [(hmm c hc l hl x hx).2]
        rfl
      · intro l hl y hy
        obtain ⟨k, hk, z, hz, hze⟩ := nameChan_masters _ l hl y hy
        simp only [midChan, List.mem_map] at hk
        obtain ⟨l', hl', rfl⟩ := hk
        simp only [midLogical, List.mem_map] at hz
        obtain ⟨x, hx, rfl⟩ := hz
        rw [hze]
        exact (hmm c hc l' hl' x hx).1

end Verif.Link
