import Verif.Scene.Lemmas

namespace Verif.Scene

open Verif.Scene.Spec
open Verif.Uuid (convertToText convertFromText zero)

/-! ### A scene used as example -/

/-- A UUID for examples. -/
def uid (n : Nat) : Uuid := List.replicate 15 0 ++ [BitVec.ofNat 8 n]

/-- A layer with a group that contains a truss carrying a fixture, and a focus point. -/
def demo : Scene :=
  { layers := [
      { uuid := uid 1, name := "Stage".toList, multipatch := none, info := {}, kids := [
          .mk .group (uid 2) "Rig".toList none {} [
            .mk .truss (uid 3) [] none { cls := some ⟨uid 20, "Metal".toList⟩ } [
              .mk .fixture (uid 4) "Spot".toList none
                { position := some ⟨uid 10, "FOH".toList⟩, focus := some (uid 5) } []]],
          .mk .focusPoint (uid 5) "F1".toList none {} [],
          .mk .fixture (uid 6) "Spot 2".toList (some (uid 4)) {} []] },
      { uuid := uid 7, name := "Empty".toList, multipatch := none, info := {}, kids := [] }]
    classes := [⟨uid 20, "Metal".toList⟩]
    positions := [⟨uid 10, "FOH".toList⟩, ⟨uid 11, "Truss 1".toList⟩] }

theorem demo_typed : TypedScene demo := by
  simp [TypedScene, demo, TypedL, Typed, LinksOk, uid]

/-! ### C42: the tree of objects -/

mutual
theorem tree_mapObj {α β : Type} (f : Kind → α → β) : ∀ o : Obj α, tree (mapObj f o) = tree o
  | .mk k u n m a kids => by rw [mapObj, tree, tree, trees_mapObjs f kids]
theorem trees_mapObjs {α β : Type} (f : Kind → α → β) : ∀ os : List (Obj α), trees (mapObjs f os) = trees os
  | [] => by rw [mapObjs, trees, trees]
  | o :: os => by rw [mapObjs, trees, trees, tree_mapObj f o, trees_mapObjs f os]
end

theorem trees_append {α : Type} (a b : List (Obj α)) : trees (a ++ b) = trees a ++ trees b := by
  induction a with
  | nil => simp [trees]
  | cons x a ih => simp [trees, ih]

theorem trees_isEmpty {α : Type} (a : List (Obj α)) : (trees a).isEmpty = a.isEmpty := by
  cases a <;> simp [trees]

mutual
theorem trees_sim (st : St) : ∀ o : Obj Links, trees (sim st o).2 = prune (tree o)
  | .mk k u n m l kids => by
    rw [sim, tree, prune, trees_isEmpty]
    split
    · rfl
    · rw [trees, trees, tree, trees_sims _ kids]
theorem trees_sims (st : St) : ∀ os : List (Obj Links), trees (sims st os).2 = prunes (trees os)
  | [] => by simp [sims, trees, prunes]
  | o :: os => by
    rw [sims, trees, prunes, trees_append, trees_sim st o, trees_sims _ os]
end

theorem layerTree_simLayers (st : St) (f : Option Kind → Raw → Links) (ls : List (Layer Links)) :
    ((simLayers st ls).2.map (mapLayer f)).map layerTree =
      ls.map (fun l => { uuid := l.uuid, name := l.name, inside := prunes (trees l.kids) }) := by
  induction ls generalizing st with
  | nil => rfl
  | cons l ls ih =>
    rw [simLayers]
    simp only [List.map_cons, ih]
    simp [layerTree, mapLayer, trees_mapObjs, trees_sims]

mutual
theorem prune_id : ∀ t : Tree, NoEmptyGroup t → prune t = [t]
  | .node k u n inside, h => by
    rw [NoEmptyGroup] at h
    rw [prune, prunes_id inside h.2, if_neg]
    rintro ⟨hk, he⟩
    exact h.1 hk (by simpa using he)
theorem prunes_id : ∀ ts : List Tree, NoEmptyGroups ts → prunes ts = ts
  | [], _ => by rw [prunes]
  | t :: ts, h => by
    rw [NoEmptyGroups] at h
    rw [prunes, prune_id t h.1, prunes_id ts h.2]; rfl
end

/-- **C42**, exactly: after writing and reading, every layer is there with its UUID and name, in order, and
contains the same objects in the same order in the same containers with the same kinds, UUIDs and names; only the
groups without content are gone. -/
theorem C42_exact (s : Scene) (h : TypedScene s) :
    (readXml (writeXml s)).scene.layers.map layerTree =
      s.layers.map (fun l => { uuid := l.uuid, name := l.name, inside := prunes (trees l.kids) }) := by
  rw [← withClasses_nil, read_write s [] h (by simp)]
  exact layerTree_simLayers _ _ _

/-- **C42** for scenes in which no group is empty: the tree read is the tree written. What is missing for the
full property: a group without content is dropped (`C42_violated`). -/
theorem C42_partial (s : Scene) (h : TypedScene s) (hg : ∀ l ∈ s.layers, NoEmptyGroups (trees l.kids)) :
    (readXml (writeXml s)).scene.layers.map layerTree = s.layers.map layerTree := by
  rw [C42_exact s h]
  apply List.map_congr_left
  intro l hl
  rw [prunes_id _ (hg l hl)]; rfl

example : (readXml (writeXml demo)).scene.layers.map layerTree = demo.layers.map layerTree :=
  C42_partial demo demo_typed (by simp [demo, trees, tree, NoEmptyGroups, NoEmptyGroup])

/-- A scene with an empty group. -/
def emptyGroup : Scene :=
  { layers := [{ uuid := uid 1, name := "L".toList, multipatch := none, info := {},
                 kids := [.mk .group (uid 2) "G".toList none {} []] }]
    classes := [], positions := [] }

/-- **C42 does not hold in full**: an empty group with UUID and name is not there after reading. -/
theorem C42_violated : ∃ s, TypedScene s ∧
    (readXml (writeXml s)).scene.layers.map layerTree ≠ s.layers.map layerTree := by
  have ht : TypedScene emptyGroup := by simp [TypedScene, emptyGroup, TypedL, Typed, LinksOk, uid]
  refine ⟨emptyGroup, ht, ?_⟩
  rw [C42_exact _ ht]
  simp [emptyGroup, layerTree, trees, tree, prunes, prune]

/-- Writing again what was read loses nothing more than groups that became empty: one level of empty groups goes
per pass. A group that contains only an empty group is written without content and read as an empty group. -/
theorem C42_nested_groups (u v : Uuid) (n m : Text) :
    prunes [.node .group u n [.node .group v m []]] = [.node .group u n []] := by
  simp [prunes, prune]

/-! ### Objects with their references -/

mutual
theorem objects_mapObj {α β : Type} (f : Kind → α → β) : ∀ o : Obj α,
    objects (mapObj f o) = (objects o).map (fun p => (p.1, p.2.1, f p.1 p.2.2))
  | .mk k u n m a kids => by rw [mapObj, objects, objects, objects_mapObjs f kids]; rfl
theorem objects_mapObjs {α β : Type} (f : Kind → α → β) : ∀ os : List (Obj α),
    objectsL (mapObjs f os) = (objectsL os).map (fun p => (p.1, p.2.1, f p.1 p.2.2))
  | [] => by rw [mapObjs, objectsL, objectsL]; rfl
  | o :: os => by rw [mapObjs, objectsL, objectsL, objects_mapObj f o, objects_mapObjs f os, List.map_append]
end

theorem objectsL_append {α : Type} (a b : List (Obj α)) : objectsL (a ++ b) = objectsL a ++ objectsL b := by
  induction a with
  | nil => simp [objectsL]
  | cons x a ih => simp [objectsL, ih]

/-- Not a group. -/
abbrev isThing {α : Type} (p : Kind × Uuid × α) : Bool := decide (p.1 ≠ .group)

mutual
theorem things_sim (st : St) : ∀ o : Obj Links,
    (objectsL (sim st o).2).filter isThing =
      ((objects o).filter isThing).map (fun p => (p.1, p.2.1, rawOf (some p.1) p.2.2))
  | .mk k u n m l kids => by
    rw [sim, objects]
    by_cases hg : k = .group ∧ kids.isEmpty
    · rw [if_pos hg]
      obtain ⟨rfl, hk⟩ := hg
      have : kids = [] := by simpa using hk
      subst this
      simp [objectsL]
    · rw [if_neg hg]
      dsimp only
      rw [objectsL, objects, objectsL, List.append_nil]
      by_cases hk : k = .group
      · rw [List.filter_cons_of_neg (by simp [hk]), List.filter_cons_of_neg (by simp [hk])]
        exact things_sims _ kids
      · rw [List.filter_cons_of_pos (by simp [hk]), List.filter_cons_of_pos (by simp [hk]), List.map_cons,
          things_sims _ kids]
theorem things_sims (st : St) : ∀ os : List (Obj Links),
    (objectsL (sims st os).2).filter isThing =
      ((objectsL os).filter isThing).map (fun p => (p.1, p.2.1, rawOf (some p.1) p.2.2))
  | [] => by rw [sims, objectsL, objectsL]; rfl
  | o :: os => by
    rw [sims, objectsL, objectsL_append, List.filter_append, List.filter_append, List.map_append,
      things_sim st o, things_sims _ os]
end

theorem filter_thing_map {α β : Type} (f : Kind → α → β) (l : List (Kind × Uuid × α)) :
    (l.map (fun p => (p.1, p.2.1, f p.1 p.2.2))).filter isThing =
      (l.filter isThing).map (fun p => (p.1, p.2.1, f p.1 p.2.2)) := by
  induction l with
  | nil => rfl
  | cons a l ih =>
    rw [List.map_cons]
    by_cases h : a.1 = .group
    · rw [List.filter_cons_of_neg (by simp [h]), List.filter_cons_of_neg (by simp [h]), ih]
    · rw [List.filter_cons_of_pos (by simp [h]), List.filter_cons_of_pos (by simp [h]), ih]; rfl

theorem things_simLayers (st : St) (f : Option Kind → Raw → Links) (ls : List (Layer Links)) :
    things ((simLayers st ls).2.map (mapLayer f)) =
      (things ls).map (fun p => (p.1, p.2.1, f (some p.1) (rawOf (some p.1) p.2.2))) := by
  induction ls generalizing st with
  | nil => rfl
  | cons l ls ih =>
    rw [simLayers]
    simp only [List.map_cons]
    simp only [things, sceneObjects, List.flatMap_cons, List.filter_append, List.map_append] at ih ⊢
    rw [ih]
    congr 1
    rw [mapLayer, objects_mapObjs]
    exact (filter_thing_map (fun k => f (some k)) _).trans (by rw [things_sims, List.map_map]; rfl)

theorem focus_pushObj (st : St) (k : Kind) (u : Uuid) : (pushObj st k u).focus = st.focus := by
  rw [pushObj]; split <;> rfl

theorem focus_pushFocus (st : St) (k : Kind) (u : Uuid) :
    (pushFocus st k u).focus = st.focus ++ (if k = .focusPoint then [u] else []) := by
  rw [pushFocus]; split <;> simp

/-- The UUIDs of the focus points in a list. -/
abbrev focusOf {α : Type} (l : List (Kind × Uuid × α)) : List Uuid :=
  l.filterMap fun p => if p.1 = .focusPoint then some p.2.1 else none

mutual
theorem focus_sim (st : St) : ∀ o : Obj Links, (sim st o).1.focus = st.focus ++ focusOf (objects o)
  | .mk k u n m l kids => by
    rw [sim, objects]
    by_cases hg : k = .group ∧ kids.isEmpty
    · rw [if_pos hg]
      obtain ⟨rfl, hk⟩ := hg
      have : kids = [] := by simpa using hk
      subst this
      simp [objectsL]
    · rw [if_neg hg]
      dsimp only
      rw [focus_pushObj, focus_sims _ kids, focus_pushFocus]
      by_cases hk : k = .focusPoint <;> simp [hk]
theorem focus_sims (st : St) : ∀ os : List (Obj Links), (sims st os).1.focus = st.focus ++ focusOf (objectsL os)
  | [] => by rw [sims, objectsL]; simp
  | o :: os => by
    rw [sims, objectsL]
    dsimp only
    rw [focus_sims _ os, focus_sim st o]; simp
end

theorem focus_simLayers (st : St) (ls : List (Layer Links)) :
    (simLayers st ls).1.focus = st.focus ++ focusPoints ls := by
  induction ls generalizing st with
  | nil => simp [simLayers, focusPoints, sceneObjects]
  | cons l ls ih =>
    rw [simLayers]
    dsimp only
    rw [ih, focus_sims]
    simp [focusPoints, sceneObjects]

/-! ### Texts of UUIDs are different even if the case of letters does not count -/

/-- The characters of a written UUID. -/
def uuidChars : List Char := "0123456789ABCDEF-".toList

theorem uuidChars_lower : ∀ a ∈ uuidChars, ∀ b ∈ uuidChars, a.toLower = b.toLower → a = b := by decide +kernel

theorem pieceText_chars : ∀ x : Byte, ∀ c ∈ Verif.Uuid.getPieceAsText x, c ∈ uuidChars := by
  decide +kernel

theorem convertToText_chars (u : Uuid) : ∀ c ∈ convertToText u, c ∈ uuidChars := by
  intro c hc
  rw [convertToText, Verif.Uuid.toText] at hc
  obtain ⟨l, hl, hc⟩ := List.mem_flatten.1 hc
  have hd : ∀ c ∈ ['-'], c ∈ uuidChars := by decide
  simp only [List.mem_cons, List.not_mem_nil, or_false, Bool.false_eq_true, if_false] at hl
  rcases hl with h | h | h | h | h | h | h | h | h | h | h | h | h | h | h | h | h | h | h | h | h | h <;>
    subst h <;> first | exact pieceText_chars _ c hc | exact hd c hc | exact absurd hc (by simp)

theorem map_lower_inj : ∀ (a b : Text), (∀ c ∈ a, c ∈ uuidChars) → (∀ c ∈ b, c ∈ uuidChars) →
    a.map Char.toLower = b.map Char.toLower → a = b
  | [], [], _, _, _ => rfl
  | [], _ :: _, _, _, h => by simp at h
  | _ :: _, [], _, _, h => by simp at h
  | x :: a, y :: b, ha, hb, h => by
    simp only [List.map_cons, List.cons.injEq] at h
    rw [uuidChars_lower x (ha x (by simp)) y (hb y (by simp)) h.1,
      map_lower_inj a b (fun c hc => ha c (by simp [hc])) (fun c hc => hb c (by simp [hc])) h.2]

theorem eqText_uuid {u v : Uuid} (hu : u.length = 16) (hv : v.length = 16)
    (h : eqText (convertToText u) (convertToText v) = true) : u = v :=
  convertToText_inj hu hv (map_lower_inj _ _ (convertToText_chars u) (convertToText_chars v) (by simpa [eqText] using h))

theorem eqText_refl (t : Text) : eqText t t = true := by simp [eqText]


/-! ### C54: the position and the focus point of a fixture -/

theorem resolveNoCase_found {β : Type} (uuidOf : β → Uuid) (l : List β) (a : β) (ha : a ∈ l)
    (h16 : ∀ b ∈ l, (uuidOf b).length = 16) (hd : ∀ b ∈ l, uuidOf b = uuidOf a → b = a) :
    resolveNoCase uuidOf (convertToText (uuidOf a)) l = some a := by
  rw [resolveNoCase, if_neg (convertToText_ne _)]
  cases hf : l.find? (fun b => eqText (convertToText (uuidOf a)) (convertToText (uuidOf b))) with
  | none => exact absurd (eqText_refl _) (by simpa using List.find?_eq_none.1 hf a ha)
  | some b =>
    have hb := List.find?_some hf
    have hm := List.mem_of_find?_eq_some hf
    rw [hd b hm (eqText_uuid (h16 a ha) (h16 b hm) hb).symm]

theorem resolveClass_found (l : List Aux) (a : Aux) (ha : a ∈ l) (h16 : ∀ b ∈ l, b.uuid.length = 16)
    (hd : DistinctUuids l) : resolveClass (convertToText a.uuid) l = some a := by
  rw [resolveClass, if_neg (convertToText_ne _)]
  cases hf : l.find? (fun b => convertToText a.uuid == convertToText b.uuid) with
  | none => exact absurd (List.find?_eq_none.1 hf a ha) (by simp)
  | some b =>
    have hb := List.find?_some hf
    have hm := List.mem_of_find?_eq_some hf
    rw [hd a ha b hm (convertToText_inj (h16 a ha) (h16 b hm) (by simpa using hb))]

/-- What the objects of a scene may point to: classes and positions of the scene and focus points inside of it;
only fixtures have a position and a focus point. -/
def LinksInside (s : Scene) : Prop :=
  ∀ p ∈ things s.layers,
    (∀ c, p.2.2.cls = some c → c ∈ s.classes) ∧
    (∀ q, p.2.2.position = some q → p.1 = .fixture ∧ q ∈ s.positions) ∧
    (∀ f, p.2.2.focus = some f → p.1 = .fixture ∧ f ∈ focusPoints s.layers)

theorem objectsL_typed : ∀ os : List (Obj Links), TypedL os → ∀ p ∈ objectsL os, p.2.1.length = 16 :=
  objectsL_typed'
where
  objects_typed' : ∀ o : Obj Links, Typed o → ∀ p ∈ objects o, p.2.1.length = 16
    | .mk k u n m l kids, h, p, hp => by
      rw [Typed] at h
      rw [objects] at hp
      rcases List.mem_cons.1 hp with rfl | hp
      · exact h.1
      · exact objectsL_typed' kids h.2.2.2 p hp
  objectsL_typed' : ∀ os : List (Obj Links), TypedL os → ∀ p ∈ objectsL os, p.2.1.length = 16
    | [], _, p, hp => by simp [objectsL] at hp
    | o :: os, h, p, hp => by
      rw [TypedL] at h
      rw [objectsL] at hp
      rcases List.mem_append.1 hp with hp | hp
      · exact objects_typed' o h.1 p hp
      · exact objectsL_typed' os h.2 p hp

theorem focusPoints_typed (s : Scene) (h : TypedScene s) : ∀ f ∈ focusPoints s.layers, f.length = 16 := by
  intro f hf
  simp only [focusPoints, List.mem_filterMap, sceneObjects, List.mem_flatMap] at hf
  obtain ⟨p, ⟨l, hl, hp⟩, hf⟩ := hf
  split at hf
  · cases hf
    exact objectsL_typed l.kids (h.1 l hl).2.2.2 p hp
  · cases hf

/-- Writing, adding the class nodes, reading: kind, UUID and all references of all objects that are not groups. -/
theorem things_read (s : Scene) (cs : List Aux) (h : TypedScene s) (hc : ∀ c ∈ cs, c.uuid.length = 16) :
    things (readXml (withClasses cs (writeXml s))).scene.layers =
      (things s.layers).map (fun p => (p.1, p.2.1,
        resolve cs s.positions (focusPoints s.layers) (some p.1) (rawOf (some p.1) p.2.2))) := by
  rw [read_write s cs h hc]
  dsimp only
  rw [things_simLayers, focus_simLayers]
  simp

theorem resolve_rawOf (s : Scene) (cs : List Aux) (h : TypedScene s) (hp : DistinctUuids s.positions)
    (hl : LinksInside s) (p : Kind × Uuid × Links) (hm : p ∈ things s.layers) :
    (resolve cs s.positions (focusPoints s.layers) (some p.1) (rawOf (some p.1) p.2.2)).position = p.2.2.position ∧
    (resolve cs s.positions (focusPoints s.layers) (some p.1) (rawOf (some p.1) p.2.2)).focus = p.2.2.focus := by
  obtain ⟨-, h2, h3⟩ := hl p hm
  obtain ⟨k, u, c, q, f⟩ := p
  dsimp only at h2 h3 ⊢
  constructor
  · cases q with
    | none =>
      simp only [resolve, rawOf]
      split <;> simp [resolveNoCase]
    | some q =>
      obtain ⟨rfl, hq⟩ := h2 q rfl
      simp only [resolve, rawOf, if_true]
      exact resolveNoCase_found Aux.uuid s.positions q hq h.2.2 (fun b hb e => hp b hb q hq e)
  · cases f with
    | none =>
      simp only [resolve, rawOf]
      split <;> simp [resolveNoCase]
    | some f =>
      obtain ⟨rfl, hf⟩ := h3 f rfl
      simp only [resolve, rawOf, if_true]
      exact resolveNoCase_found id (focusPoints s.layers) f hf (focusPoints_typed s h) (fun b _ e => e)

/-- **C54**: all objects other than groups are there after writing and reading, in the same order, and each
fixture has the same position (UUID and name) and the same focus point; the positions of the scene are the same. -/
theorem C54 (s : Scene) (h : TypedScene s) (hp : DistinctUuids s.positions) (hl : LinksInside s) :
    (readXml (writeXml s)).scene.positions = s.positions ∧
    (things (readXml (writeXml s)).scene.layers).map (fun p => (p.1, p.2.1, p.2.2.position, p.2.2.focus)) =
      (things s.layers).map (fun p => (p.1, p.2.1, p.2.2.position, p.2.2.focus)) := by
  rw [← withClasses_nil]
  refine ⟨by rw [read_write s [] h (by simp)], ?_⟩
  rw [things_read s [] h (by simp), List.map_map]
  apply List.map_congr_left
  intro p hm
  obtain ⟨e1, e2⟩ := resolve_rawOf s [] h hp hl p hm
  simp only [Function.comp]
  rw [e1, e2]

theorem demo_links : LinksInside demo := by
  intro p hp
  simp [demo, things, sceneObjects, objectsL, objects] at hp
  rcases hp with rfl | rfl | rfl | rfl <;> simp [demo, focusPoints, sceneObjects, objectsL, objects]

theorem demo_distinct : DistinctUuids demo.positions ∧ DistinctUuids demo.classes := by
  constructor
  · intro a ha b hb h
    simp [demo] at ha hb
    rcases ha with rfl | rfl <;> rcases hb with rfl | rfl <;> first | rfl | (exact absurd h (by decide))
  · intro a ha b hb h
    simp [demo] at ha hb
    rw [ha, hb]

example : (things (readXml (writeXml demo)).scene.layers).map (fun p => p.2.2.position) =
    [none, some ⟨uid 10, "FOH".toList⟩, none, none] := by
  have h := (C54 demo demo_typed demo_distinct.1 demo_links).2
  have h' := congrArg (List.map fun p : Kind × Uuid × Option Aux × Option Uuid => p.2.2.1) h
  simp only [List.map_map] at h'
  refine h'.trans ?_
  simp [demo, things, sceneObjects, objectsL, objects]

/-! ### C43: classes -/

/-- **C43 does not hold**: after writing and reading no object has a class and the file has no classes, whatever
was assigned before; the file names the class of an object, but never lists the classes. -/
theorem C43_violated (s : Scene) (h : TypedScene s) :
    (readXml (writeXml s)).scene.classes = [] ∧
    ∀ p ∈ sceneObjects (readXml (writeXml s)).scene.layers, p.2.2.cls = none := by
  rw [← withClasses_nil, read_write s [] h (by simp)]
  refine ⟨rfl, ?_⟩
  intro p hp
  simp only [sceneObjects, List.mem_flatMap, List.mem_map] at hp
  obtain ⟨l, ⟨l', -, rfl⟩, hp⟩ := hp
  rw [mapLayer, objects_mapObjs, List.mem_map] at hp
  obtain ⟨q, -, rfl⟩ := hp
  simp [resolve, resolveClass]

/-- A scene whose truss has a class. -/
example : ∃ p ∈ sceneObjects demo.layers, p.2.2.cls ≠ none := by
  simp [demo, sceneObjects, objectsL, objects]

/-- **C43** for the files in which the classes are listed in the auxiliary data (as the specification of the
format asks and other programs write them): every object that is not a group has the class it had, with UUID and
name. What is missing: the library itself does not list the classes (`C43_violated`), and groups and layers lose
their class even then (`C43_groups_violated`). -/
theorem C43_partial (s : Scene) (h : TypedScene s) (hp : DistinctUuids s.positions)
    (hc : DistinctUuids s.classes) (hl : LinksInside s) :
    (readXml (withClasses s.classes (writeXml s))).scene.classes = s.classes ∧
    things (readXml (withClasses s.classes (writeXml s))).scene.layers = things s.layers := by
  refine ⟨by rw [read_write s _ h h.2.1], ?_⟩
  rw [things_read s _ h h.2.1]
  conv => rhs; rw [← List.map_id (things s.layers)]
  apply List.map_congr_left
  intro p hm
  obtain ⟨e1, e2⟩ := resolve_rawOf s s.classes h hp hl p hm
  have hk : p.1 ≠ .group := by
    have := (List.mem_filter.1 hm).2
    simpa using this
  have e3 : (resolve s.classes s.positions (focusPoints s.layers) (some p.1) (rawOf (some p.1) p.2.2)).cls = p.2.2.cls := by
    obtain ⟨h1, -, -⟩ := hl p hm
    obtain ⟨k, u, c, q, f⟩ := p
    dsimp only at h1 hk ⊢
    cases c with
    | none => simp [resolve, rawOf, resolveClass]
    | some c =>
      simp only [resolve, rawOf]
      rw [if_neg (by simpa using hk)]
      exact resolveClass_found s.classes c (h1 c rfl) h.2.1 hc
  obtain ⟨k, u, l⟩ := p
  dsimp only [id] at e1 e2 e3 ⊢
  congr 2
  cases hr : resolve s.classes s.positions (focusPoints s.layers) (some k) (rawOf (some k) l)
  rw [hr] at e1 e2 e3
  dsimp only at e1 e2 e3
  rw [e1, e2, e3]

example : things (readXml (withClasses demo.classes (writeXml demo))).scene.layers = things demo.layers :=
  (C43_partial demo demo_typed demo_distinct.1 demo_distinct.2 demo_links).2

/-- **C43 does not hold for groups and layers** even if the file lists the classes: none of them has a class
after reading any file. -/
theorem C43_groups_violated (root : Xml) :
    (∀ l ∈ (readXml root).scene.layers, l.info.cls = none) ∧
    (∀ p ∈ sceneObjects (readXml root).scene.layers, p.1 = .group → p.2.2.cls = none) := by
  rw [readXml]
  split
  · simp [sceneObjects]
  · dsimp only
    constructor
    · intro l hl
      obtain ⟨l', -, rfl⟩ := List.mem_map.1 hl
      simp [mapLayer, resolve]
    · intro p hp hg
      simp only [sceneObjects, List.mem_flatMap, List.mem_map] at hp
      obtain ⟨l, ⟨l', -, rfl⟩, hp⟩ := hp
      rw [mapLayer, objects_mapObjs, List.mem_map] at hp
      obtain ⟨q, -, rfl⟩ := hp
      dsimp only at hg ⊢
      simp [resolve, hg]

/-- The text of a class reference is compared exactly: a UUID written with small letters is the same UUID, but
the class is not found. -/
theorem C43_case_violated : ∃ t : Text, ∃ c : Aux, guid t = c.uuid ∧ resolveClass t [c] = none := by
  refine ⟨"0000000a-0000-0000-0000-000000000000".toList, ⟨[0, 0, 0, 10, 0, 0, 0, 0, 0, 0, 0, 0, 0, 0, 0, 0], []⟩, ?_, ?_⟩ <;>
    decide +kernel

/-! ### C44: duplicated UUIDs -/

theorem kindOf_thing (n : Text) : (objectNames.any (eqText n) = true ↔ ∃ k, kindOf n = some k ∧ k ≠ .group) ∧
    (objectNames.any (eqText n) = false ∧ eqText n "GroupObject".toList = true ↔ kindOf n = some .group) := by
  simp only [objectNames, kindOf, List.map_cons, List.map_nil, List.any_cons, List.any_nil, Bool.or_false]
  repeat' split
  all_goals simp_all

/-- The state after objects with the given UUIDs were added. -/
structure Added (st st' : St) (us : List Uuid) : Prop where
  objs : ∃ vs, vs.Perm us ∧ st'.objs = st.objs ++ vs
  dup : st'.dup = true ↔ (st.dup = true ∨ ¬ us.Nodup ∨ ∃ u ∈ us, u ∈ st.objs)

theorem Added.refl (st : St) : Added st st [] := ⟨⟨[], .nil, by simp⟩, by simp⟩

theorem Added.trans {a b c : St} {us vs : List Uuid} (h : Added a b us) (g : Added b c vs) : Added a c (us ++ vs) := by
  obtain ⟨⟨xs, hx, ho⟩, hd⟩ := h
  obtain ⟨⟨ys, hy, po⟩, pd⟩ := g
  refine ⟨⟨xs ++ ys, hx.append hy, by rw [po, ho, List.append_assoc]⟩, ?_⟩
  rw [pd, hd, ho]
  have hxm : ∀ u, u ∈ xs ↔ u ∈ us := fun u => hx.mem_iff
  constructor
  · rintro ((h | h | ⟨u, hu, hu'⟩) | h | ⟨u, hu, hu'⟩)
    · exact .inl h
    · exact .inr (.inl fun hn => h (List.nodup_append.1 hn).1)
    · exact .inr (.inr ⟨u, by simp [hu], hu'⟩)
    · exact .inr (.inl fun hn => h (List.nodup_append.1 hn).2.1)
    · rcases List.mem_append.1 hu' with hu' | hu'
      · exact .inr (.inr ⟨u, by simp [hu], hu'⟩)
      · exact .inr (.inl fun hn => (List.nodup_append.1 hn).2.2 u ((hxm u).1 hu') u hu rfl)
  · rintro (h | h | ⟨u, hu, hu'⟩)
    · exact .inl (.inl h)
    · by_cases h1 : us.Nodup
      · by_cases h2 : vs.Nodup
        · right; right
          by_cases h3 : ∃ u ∈ vs, u ∈ us
          · obtain ⟨u, hu, hu'⟩ := h3
            exact ⟨u, hu, by simp [(hxm u).2 hu']⟩
          · exact absurd (List.nodup_append.2 ⟨h1, h2, fun a ha b hb e => h3 ⟨b, hb, e ▸ ha⟩⟩) h
        · exact .inr (.inl h2)
      · exact .inl (.inr (.inl h1))
    · rcases List.mem_append.1 hu with hu | hu
      · exact .inl (.inr (.inr ⟨u, hu, hu'⟩))
      · exact .inr (.inr ⟨u, hu, by simp [hu']⟩)

theorem added_pushObj (st : St) (k : Kind) (u : Uuid) (h : k ≠ .group) : Added st (pushObj st k u) [u] := by
  rw [pushObj, if_neg h]
  refine ⟨⟨[u], .refl _, rfl⟩, ?_⟩
  simp [List.any_eq_true]

theorem added_congr {a b c : St} {us : List Uuid} (h : Added a b us) (e1 : c.objs = a.objs) (e2 : c.dup = a.dup) :
    Added c b us := by
  obtain ⟨h1, h2⟩ := h
  exact ⟨by rw [e1]; exact h1, by rw [e1, e2]; exact h2⟩

theorem Added.perm {a b : St} {us vs : List Uuid} (h : Added a b us) (p : us.Perm vs) : Added a b vs := by
  obtain ⟨⟨xs, hx, ho⟩, hd⟩ := h
  refine ⟨⟨xs, hx.trans p, ho⟩, ?_⟩
  rw [hd, p.nodup_iff]
  simp only [p.mem_iff]

theorem pushFocus_same (st : St) (k : Kind) (u : Uuid) :
    (pushFocus st k u).objs = st.objs ∧ (pushFocus st k u).dup = st.dup := by
  rw [pushFocus]; split <;> simp

mutual
theorem added_readNode (st : St) : ∀ x : Xml, Added st (readNode st x).1 (nodeUuids x)
  | .elem n as tx kids => by
    rw [readNode, nodeUuids]
    cases hu : (Xml.elem n as tx kids).attr? "uuid".toList with
    | none => exact .refl st
    | some t =>
      dsimp only
      obtain ⟨h1, h2⟩ := kindOf_thing n
      cases hk : kindOf n with
      | none =>
        have e1 : ¬ objectNames.any (eqText n) = true := by rw [h1, hk]; simp
        have e2 : ¬ eqText n "GroupObject".toList = true := by
          intro e; rw [hk] at h2; exact absurd (h2.1 ⟨by simpa using e1, e⟩) (by simp)
        rw [if_neg e1, if_neg e2]
        exact .refl st
      | some k =>
        dsimp only
        have hr := added_congr (added_readChildList (pushFocus st k (guid t)) kids)
          (pushFocus_same st k (guid t)).1.symm (pushFocus_same st k (guid t)).2.symm
        by_cases hg : k = .group
        · subst hg
          have e := h2.2 hk
          rw [if_neg (by rw [e.1]; simp), if_pos e.2]
          simpa [pushObj] using hr
        · have e1 : objectNames.any (eqText n) = true := h1.2 ⟨k, hk, hg⟩
          rw [if_pos e1]
          exact (hr.trans (added_pushObj _ k (guid t) hg)).perm List.perm_append_comm
theorem added_readChildList (st : St) : ∀ xs : List Xml, Added st (readChildList st xs).1 (listUuids xs)
  | [] => by rw [readChildList, listUuids]; exact .refl st
  | .elem n as tx kids :: rest => by
    rw [readChildList, listUuids]
    split
    · exact added_readNodes st kids
    · exact added_readChildList st rest
theorem added_readNodes (st : St) : ∀ xs : List Xml, Added st (readNodes st xs).1 (nodesUuids xs)
  | [] => by rw [readNodes, nodesUuids]; exact .refl st
  | x :: xs => by
    rw [readNodes, nodesUuids]
    exact (added_readNode st x).trans (added_readNodes _ xs)
end

theorem added_readLayer (st : St) (x : Xml) : Added st (readLayer st x).1 (layerUuids x) := by
  rw [readLayer, layerUuids]
  by_cases hn : eqText x.name "Layer".toList = true
  · rw [if_pos hn]
    cases hu : x.attr? "uuid".toList with
    | none => rw [if_neg (fun h => absurd h.2 (by simp))]; exact .refl st
    | some t => rw [if_pos ⟨hn, rfl⟩]; exact added_readChildList st x.kids
  · rw [if_neg hn, if_neg (fun h => hn h.1)]
    exact .refl st

theorem added_readLayers (st : St) (xs : List Xml) : Added st (readLayers st xs).1 (xs.flatMap layerUuids) := by
  induction xs generalizing st with
  | nil => exact .refl st
  | cons x xs ih =>
    rw [readLayers, List.flatMap_cons]
    exact (added_readLayer st x).trans (ih _)

/-- **C44** for every file: duplicated UUIDs are reported exactly when two of the scene objects of the file (not
groups, not layers) have the same UUID. The UUID is the one that the library gives the object. -/
theorem C44_partial (root : Xml) : (readXml root).dup = true ↔ ¬ (fileUuids root).Nodup := by
  rw [readXml, fileUuids]
  cases root.child? "Scene".toList with
  | none => simp
  | some sc =>
    dsimp only
    rw [(added_readLayers {} _).dup]
    simp

/-- The UUIDs of the nodes written for a list of objects. -/
theorem nodesUuids_append (xs ys : List Xml) : nodesUuids (xs ++ ys) = nodesUuids xs ++ nodesUuids ys := by
  induction xs with
  | nil => simp [nodesUuids]
  | cons x xs ih => simp [nodesUuids, ih]

/-- The UUIDs of the objects that are not groups. -/
abbrev uuidsOf {α : Type} (l : List (Kind × Uuid × α)) : List Uuid :=
  l.filterMap fun p => if p.1 = .group then none else some p.2.1

theorem listUuids_text (n v : Text) (rest : List Xml) (h : n ≠ "ChildList".toList) :
    listUuids (textNode n v :: rest) = listUuids rest := by
  rw [textNode, listUuids, if_neg h]

theorem listUuids_class (l : Links) (rest : List Xml) : listUuids (classNodes l ++ rest) = listUuids rest := by
  obtain ⟨c, p, f⟩ := l
  cases c with
  | none => rfl
  | some c => exact listUuids_text _ _ _ (by decide)

theorem listUuids_fixture (k : Kind) (l : Links) : listUuids (fixtureNodes k l) = [] := by
  obtain ⟨c, p, f⟩ := l
  by_cases hk : k = .fixture
  · subst hk
    cases p <;> cases f
    · rfl
    · exact listUuids_text _ _ _ (by decide)
    · exact listUuids_text _ _ _ (by decide)
    · simp only [fixtureNodes, if_true, List.cons_append, List.nil_append]
      rw [listUuids_text _ _ _ (by decide), listUuids_text _ _ _ (by decide)]
      rfl
  · simp only [fixtureNodes, hk, if_false]; rfl

theorem listUuids_child (b : Bool) (ks rest : List Xml) :
    listUuids (childListNode b ks ++ rest) = if b then nodesUuids ks else listUuids rest := by
  cases b
  · rfl
  · rw [childListNode]
    simp only [if_true, List.cons_append, List.nil_append]
    rw [listUuids, if_pos rfl]

mutual
theorem uuids_printObj : ∀ o : Obj Links, Typed o → nodesUuids (printObj o) = uuidsOf (objects o)
  | .mk k u n m l kids, h => by
    rw [Typed] at h
    obtain ⟨hu, -, -, hk⟩ := h
    rw [printObj, objects]
    by_cases hg : k = .group ∧ kids.isEmpty
    · rw [if_pos hg]
      obtain ⟨rfl, he⟩ := hg
      have : kids = [] := by simpa using he
      subst this
      simp [objectsL, nodesUuids]
    · rw [if_neg hg]
      have hl : listUuids (classNodes l ++ childListNode (!kids.isEmpty) (printObjs kids) ++ fixtureNodes k l) =
          uuidsOf (objectsL kids) := by
        rw [List.append_assoc, listUuids_class, listUuids_child, listUuids_fixture, uuids_printObjs kids hk]
        cases kids <;> simp [objectsL]
      rw [nodesUuids, nodesUuids, List.append_nil, nodeUuids, attr_uuid]
      dsimp only
      obtain ⟨h1, h2⟩ := kindOf_thing k.nodeName
      rw [kindOf_nodeName] at h1 h2
      rw [hl, guid_convertToText u hu]
      by_cases hk' : k = .group
      · subst hk'
        have e := h2.2 rfl
        rw [if_neg (by rw [e.1]; simp), if_pos e.2]
        simp
      · rw [if_pos (h1.2 ⟨k, rfl, hk'⟩)]
        simp [hk']
theorem uuids_printObjs : ∀ os : List (Obj Links), TypedL os → nodesUuids (printObjs os) = uuidsOf (objectsL os)
  | [], _ => by simp [printObjs, objectsL, nodesUuids]
  | o :: os, h => by
    rw [TypedL] at h
    rw [printObjs, nodesUuids_append, objectsL, uuids_printObj o h.1, uuids_printObjs os h.2]
    simp
end

theorem uuids_printLayer (l : Layer Links) (hk : TypedL l.kids) :
    layerUuids (printLayer l) = uuidsOf (objectsL l.kids) := by
  have hn : eqText (printLayer l).name "Layer".toList = true := layer_name
  have hu : ((printLayer l).attr? "uuid".toList).isSome := by rw [printLayer, attr_uuid]; rfl
  rw [layerUuids, if_pos ⟨hn, hu⟩]
  have h := listUuids_child (!l.kids.isEmpty) (printObjs l.kids) []
  rw [List.append_nil] at h
  rw [printLayer, Xml.kids, listUuids_class, h, uuids_printObjs _ hk]
  cases l.kids <;> simp [objectsL, listUuids]

theorem fileUuids_write (s : Scene) (h : TypedScene s) : fileUuids (writeXml s) = sceneUuids s := by
  rw [← withClasses_nil, withClasses_write, fileUuids, fileOf_scene]
  dsimp only
  rw [scene_layers]
  simp only [Option.map_some, Option.getD_some, Xml.kids]
  rw [sceneUuids, sceneObjects]
  have : ∀ ls : List (Layer Links), (∀ l ∈ ls, TypedL l.kids) →
      (ls.map printLayer).flatMap layerUuids = uuidsOf (ls.flatMap fun l => objectsL l.kids) := by
    intro ls
    induction ls with
    | nil => intro _; rfl
    | cons l ls ih =>
      intro hls
      rw [List.map_cons, List.flatMap_cons, List.flatMap_cons, uuids_printLayer l (hls l (by simp)),
        ih (fun x hx => hls x (by simp [hx]))]
      simp only [uuidsOf, List.filterMap_append]
  exact this s.layers (fun l hl => (h.1 l hl).2.2.2)

/-- **C44** for the files that the library writes: duplicated UUIDs are reported exactly when two objects of the
scene (not groups, not layers) have the same UUID. -/
theorem C44_written (s : Scene) (h : TypedScene s) :
    (readXml (writeXml s)).dup = true ↔ ¬ (sceneUuids s).Nodup := by
  rw [C44_partial, fileUuids_write s h]

example : (readXml (writeXml demo)).dup = false := by
  have := C44_written demo demo_typed
  have hn : (sceneUuids demo).Nodup := by
    simp [sceneUuids, sceneObjects, demo, objectsL, objects]
    decide
  cases h : (readXml (writeXml demo)).dup
  · rfl
  · exact absurd hn (this.1 h)

/-- A fixture and a truss inside of it with the same UUID, and a group and a layer that have it too. -/
def twice : Scene :=
  { layers := [{ uuid := uid 1, name := [], multipatch := none, info := {},
                 kids := [.mk .group (uid 1) [] none {} [.mk .fixture (uid 1) [] none {} [.mk .truss (uid 1) [] none {} []]]] }]
    classes := [], positions := [] }

example : (readXml (writeXml twice)).dup = true := by
  have ht : TypedScene twice := by simp [TypedScene, twice, TypedL, Typed, LinksOk, uid]
  rw [C44_written twice ht]
  simp [sceneUuids, sceneObjects, twice, objectsL, objects]

/-- **C44 does not hold for the texts of a file**: two different texts that are not UUIDs are both taken for the
zero UUID. -/
theorem C44_text_violated : ∃ t t' : Text, t ≠ t' ∧ guid t = guid t' :=
  ⟨"one".toList, "two".toList, by decide, by decide +kernel⟩

/-! ### Multipatch parents -/

/-- The events that add objects. -/
theorem known_append (seen : List Uuid) (es fs : List Event) :
    known seen (es ++ fs) = known seen es ++
      known (seen ++ es.filterMap (fun | .closes u => some u | .opens _ => none)) fs := by
  induction es generalizing seen with
  | nil => simp [known]
  | cons e es ih =>
    cases e with
    | opens p => simp [known, ih]
    | closes u => simp [known, ih]

/-- The objects that end in a list of events. -/
abbrev closed (es : List Event) : List Uuid := es.filterMap (fun | .closes u => some u | .opens _ => none)

theorem parentsL_append {α : Type} (a b : List (Obj α)) : parentsL (a ++ b) = parentsL a ++ parentsL b := by
  induction a with
  | nil => simp [parentsL]
  | cons x a ih => simp [parentsL, ih]

theorem objs_pushFocus (st : St) (k : Kind) (u : Uuid) : (pushFocus st k u).objs = st.objs := (pushFocus_same st k u).1

theorem objs_pushObj (st : St) (k : Kind) (u : Uuid) :
    (pushObj st k u).objs = st.objs ++ (if k = .group then [] else [u]) := by
  rw [pushObj]; split <;> simp

mutual
theorem parents_sim (st : St) : ∀ o : Obj Links,
    (sim st o).1.objs = st.objs ++ closed (events o) ∧ parentsL (sim st o).2 = known st.objs (events o)
  | .mk k u n m l kids => by
    rw [sim, events]
    by_cases hg : k = .group ∧ kids.isEmpty
    · rw [if_pos hg, if_pos hg]
      simp [parentsL, known]
    · rw [if_neg hg, if_neg hg]
      dsimp only
      obtain ⟨h1, h2⟩ := parents_sims (pushFocus st k u) kids
      rw [objs_pushFocus] at h1 h2
      refine ⟨?_, ?_⟩
      · rw [objs_pushObj, h1]
        by_cases hk : k = .group <;> simp [hk]
      · rw [parentsL, parents, parentsL, h2, List.append_nil, List.append_assoc]
        rw [known_append, known_append]
        by_cases hk : k = .group <;> simp [hk, known]
theorem parents_sims (st : St) : ∀ os : List (Obj Links),
    (sims st os).1.objs = st.objs ++ closed (eventsL os) ∧ parentsL (sims st os).2 = known st.objs (eventsL os)
  | [] => by simp [sims, eventsL, parentsL, known]
  | o :: os => by
    obtain ⟨h1, h2⟩ := parents_sim st o
    obtain ⟨h3, h4⟩ := parents_sims (sim st o).1 os
    rw [sims, eventsL]
    dsimp only
    refine ⟨?_, ?_⟩
    · rw [h3, h1]; simp
    · rw [parentsL_append, h2, h4, h1, known_append]
end

mutual
theorem parents_mapObj {α β : Type} (f : Kind → α → β) : ∀ o : Obj α, parents (mapObj f o) = parents o
  | .mk k u n m a kids => by rw [mapObj, parents, parents, parents_mapObjs f kids]
theorem parents_mapObjs {α β : Type} (f : Kind → α → β) : ∀ os : List (Obj α), parentsL (mapObjs f os) = parentsL os
  | [] => by rw [mapObjs, parentsL, parentsL]
  | o :: os => by rw [mapObjs, parentsL, parentsL, parents_mapObj f o, parents_mapObjs f os]
end

theorem parents_simLayers (st : St) (f : Option Kind → Raw → Links) (ls : List (Layer Links)) :
    sceneParents ((simLayers st ls).2.map (mapLayer f)) = known st.objs (sceneEvents ls) := by
  induction ls generalizing st with
  | nil => simp [simLayers, sceneParents, sceneEvents, known]
  | cons l ls ih =>
    rw [simLayers]
    dsimp only
    obtain ⟨h1, h2⟩ := parents_sims st l.kids
    simp only [sceneParents, List.map_cons, List.flatMap_cons, sceneEvents] at ih ⊢
    rw [ih, h1]
    simp only [mapLayer, parents_mapObjs, h2, List.cons_append, known]
    rw [known_append]

/-- Multipatch parents, exactly: in the order of the file, an object has its multipatch parent after reading if
and only if the parent is a scene object whose node ended before the node of the object began. -/
theorem C55_exact (s : Scene) (h : TypedScene s) :
    sceneParents (readXml (writeXml s)).scene.layers = known [] (sceneEvents s.layers) := by
  rw [← withClasses_nil, read_write s [] h (by simp)]
  exact parents_simLayers {} _ s.layers

/-- Every parent named in the events has ended before. -/
def Backward (seen : List Uuid) : List Event → Prop
  | [] => True
  | .opens p :: es => (∀ u, p = some u → u ∈ seen) ∧ Backward seen es
  | .closes u :: es => Backward (seen ++ [u]) es

theorem known_backward (seen : List Uuid) (es : List Event) (h : Backward seen es) :
    known seen es = es.filterMap (fun | .opens p => some p | .closes _ => none) := by
  induction es generalizing seen with
  | nil => rfl
  | cons e es ih =>
    cases e with
    | opens p =>
      rw [Backward] at h
      rw [known, ih seen h.2]
      cases p with
      | none => rfl
      | some u => simp [h.1 u rfl]
    | closes u => rw [Backward] at h; rw [known, ih _ h]; rfl

mutual
theorem opened_events {α : Type} : ∀ o : Obj α, NoEmptyGroup (tree o) →
    (events o).filterMap (fun | .opens p => some p | .closes _ => none) = parents o
  | .mk k u n m l kids, h => by
    rw [tree, NoEmptyGroup] at h
    rw [events, if_neg, parents]
    · rw [List.filterMap_append, List.filterMap_append, opened_eventsL kids h.2]
      by_cases hk : k = .group <;> simp [hk]
    · rintro ⟨hk, he⟩
      have : kids = [] := by simpa using he
      subst this
      exact h.1 hk (by simp [trees])
theorem opened_eventsL {α : Type} : ∀ os : List (Obj α), NoEmptyGroups (trees os) →
    (eventsL os).filterMap (fun | .opens p => some p | .closes _ => none) = parentsL os
  | [], _ => by simp [eventsL, parentsL]
  | o :: os, h => by
    rw [trees, NoEmptyGroups] at h
    rw [eventsL, parentsL, List.filterMap_append, opened_events o h.1, opened_eventsL os h.2]
end

/-- **C55** if no group is empty and every multipatch parent is a scene object that comes completely before the
objects that name it: all multipatch parents are the same after reading. What is missing: parents that come later,
contain the object, or are groups or layers (`C55_violated`). -/
theorem C55_partial (s : Scene) (h : TypedScene s) (hg : ∀ l ∈ s.layers, NoEmptyGroups (trees l.kids))
    (hb : Backward [] (sceneEvents s.layers)) :
    sceneParents (readXml (writeXml s)).scene.layers = sceneParents s.layers := by
  rw [C55_exact s h, known_backward _ _ hb, sceneEvents, sceneParents]
  generalize s.layers = ls at hg
  induction ls with
  | nil => rfl
  | cons l ls ih =>
    rw [List.flatMap_cons, List.flatMap_cons, List.filterMap_append, ih (fun x hx => hg x (by simp [hx])),
      List.filterMap_cons, opened_eventsL _ (hg l (by simp))]

example : sceneParents (readXml (writeXml demo)).scene.layers = sceneParents demo.layers :=
  C55_partial demo demo_typed (by simp [demo, trees, tree, NoEmptyGroups, NoEmptyGroup])
    (by simp [sceneEvents, demo, eventsL, events, Backward])

example : some (uid 4) ∈ sceneParents demo.layers := by simp [sceneParents, demo, parentsL, parents]

/-- Two fixtures; the first one names the second one as its multipatch parent. -/
def forward : Scene :=
  { layers := [{ uuid := uid 1, name := [], multipatch := none, info := {},
                 kids := [.mk .fixture (uid 2) [] (some (uid 3)) {} [], .mk .fixture (uid 3) [] none {} []] }]
    classes := [], positions := [] }

/-- **C55 does not hold in full**: a multipatch parent that comes later in the scene is lost. -/
theorem C55_violated : ∃ s, TypedScene s ∧
    sceneParents (readXml (writeXml s)).scene.layers ≠ sceneParents s.layers := by
  have ht : TypedScene forward := by simp [TypedScene, forward, TypedL, Typed, LinksOk, uid]
  refine ⟨forward, ht, ?_⟩
  rw [C55_exact _ ht]
  simp [forward, sceneEvents, sceneParents, eventsL, events, known, parentsL, parents]

end Verif.Scene
