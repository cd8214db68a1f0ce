import Verif.Link.Spec

/-!
# Lemmas about writing and resolving links
-/

namespace Verif.Link

open Lookup Lookup.Spec Spec

theorem mapO_of {α β : Type} {g : α → Option β} {h : α → β} (l : List α) (hg : ∀ x ∈ l, g x = some (h x)) :
    mapO g l = some (l.map h) := by
  induction l with
  | nil => rfl
  | cons x l ih =>
    rw [mapO, hg x List.mem_cons_self, ih (fun y hy => hg y (List.mem_cons_of_mem _ hy))]
    rfl

theorem thread_of {σ α β : Type} {g : σ → α → Option (σ × β × List Err)} {h : α → β} (s : σ) (l : List α)
    (hg : ∀ x ∈ l, g s x = some (s, h x, [])) : thread g s l = some (s, l.map h, []) := by
  induction l with
  | nil => rfl
  | cons x l ih =>
    rw [thread, hg x List.mem_cons_self, Option.bind_some, ih (fun y hy => hg y (List.mem_cons_of_mem _ hy))]
    rfl

theorem thread_map {σ α β γ : Type} {g : σ → α → Option (σ × β × List Err)} {h : γ → β} {u : γ → α} (s : σ) (l : List γ)
    (hg : ∀ x ∈ l, g s (u x) = some (s, h x, [])) : thread g s (l.map u) = some (s, l.map h, []) := by
  induction l with
  | nil => rfl
  | cons x l ih =>
    rw [List.map_cons, thread, hg x List.mem_cons_self, Option.bind_some, ih (fun y hy => hg y (List.mem_cons_of_mem _ hy))]
    rfl

/-! ## Pools -/

theorem documentOrder_trees {L : Type} (gs : List (Geo L)) : documentOrder (trees gs) = (nodes gs).map (·.1) := by
  induction gs using trees.induct with
  | case1 => simp [trees, documentOrder, nodes]
  | case2 me a b kids rest ih1 ih2 => simp [trees, documentOrder, nodes, ih1, ih2]

theorem trees_write (gs : List (Geo Ptr)) : trees (writeGeos gs) = trees gs := by
  induction gs using trees.induct with
  | case1 => simp [trees, writeGeos]
  | case2 me a b kids rest ih1 ih2 => simp [trees, writeGeos, ih1, ih2]

theorem top_trees {L : Type} (gs : List (Geo L)) : (trees gs).map (fun g => match g with | .node n _ => n) =
    gs.map (fun g => match g with | .node me _ _ _ => me) := by
  induction gs with
  | nil => simp [trees]
  | cons g gs ih => cases g; simp [trees, ih]

/-! ## Links to elements of the fixture -/

theorem text_eq_nil {l : List Named} (hu : Unique l) {p : Ptr} (hp : To l p) : text p = [] ↔ p = none := by
  cases p with
  | none => simp [text]
  | some x => simp [text, hu.1 x (hp x rfl)]

theorem scan_text {l : List Named} (hu : Unique l) {x : Named} (hx : x ∈ l) : scan l x.ref = some x :=
  scan_unique l hu.2 x hx

theorem opt_text {l : List Named} (hu : Unique l) {p : Ptr} (hp : To l p) {look : Txt → Option Named}
    (hl : ∀ t, look t = scan l t) : opt look (text p) = p := by
  cases p with
  | none => rfl
  | some x =>
    unfold opt text
    rw [if_neg (hu.1 x (hp x rfl)), hl, scan_text hu (hp x rfl)]

theorem look_into {l : List Named} (hu : Unique l) {p : Ptr} (hp : Into l p) {look : Txt → Option Named}
    (hl : ∀ t, look t = scan l t) : look (text p) = p := by
  obtain ⟨x, hx, rfl⟩ := hp
  rw [hl]
  exact scan_text hu hx

theorem into_to {l : List Named} {p : Ptr} (h : Into l p) : To l p := by
  obtain ⟨x, hx, rfl⟩ := h
  intro y hy
  cases hy
  exact hx

theorem into_ne {l : List Named} {p : Ptr} (h : Into l p) : p ≠ none := by
  obtain ⟨x, hx, rfl⟩ := h
  simp

/-- The lookup of an existing attribute in the initial state gives that attribute and creates nothing. -/
theorem getAttr_initial (f : Fixture) (T : Table Named) (hu : Unique (f.attributes.map Prod.fst)) (s : St)
    (hs : s.attrs = f.attrState T) {p : Ptr} (hp : Into (f.attributes.map Prod.fst) p) : s.getAttr T (text p) = (s, p) := by
  obtain ⟨x, hx, rfl⟩ := hp
  have h : s.attrs.getByRef T s.next x.ref = (s.attrs, some x) := by
    unfold AttrState.getByRef
    by_cases hn : eqNoCase x.ref noFeatureText = true
    · rw [if_pos hn]
      unfold AttrState.needNoFeature
      have : s.attrs.noFeature = some x := by
        rw [hs]
        show scan (f.attributes.map Prod.fst) noFeatureText = some x
        have h2 := scan_text hu hx
        unfold scan at h2 ⊢
        rw [← h2]
        congr 1
        funext y
        exact (eqNoCase_congr_right _ ((eqNoCase_iff _ _).1 hn)).symm
      rw [this]
    · rw [if_neg hn]
      have : s.attrs.search T x.ref = some x := by
        rw [hs, attr_search T _ _ (attr_initial f T) x.ref (by simpa using hn)]
        exact scan_text hu hx
      rw [this]
  unfold St.getAttr
  simp only [text, h]
  rw [if_neg]
  intro hc
  cases hn : s.attrs.noFeature <;> simp [hn] at hc

/-! ## Geometries -/

theorem modeGeometry_into {f : Fixture} {l : List Named} (hl : f.geometries.map (fun g => match g with | .node n _ => n) = l)
    (hu : Unique l) {p : Ptr} (hp : Into l p) : f.modeGeometry (text p) = p := by
  obtain ⟨x, hx, rfl⟩ := hp
  unfold Fixture.modeGeometry
  simp only [text, hu.1 x hx, if_false]
  exact (congrArg (fun l => scan l x.ref) hl).trans (scan_text hu hx)

theorem channelGeometry_eq (f : Fixture) (T : Table Named) (t : Txt) (ht : t ≠ []) :
    f.channelGeometry T t = scan (documentOrder f.geometries) t := (C31_channelGeometry f T t ht).unique

theorem channelGeometry_into {f : Fixture} {T : Table Named} (hu : Unique (documentOrder f.geometries)) {p : Ptr}
    (hp : Into (documentOrder f.geometries) p) : f.channelGeometry T (text p) = p := by
  obtain ⟨x, hx, rfl⟩ := hp
  exact (channelGeometry_eq f T x.ref (hu.1 x hx)).trans (scan_text hu hx)

theorem resolveGeos_write (f : Fixture) (T : Table Named) (hm : Unique f.models) (he : Unique f.emitters)
    (hg : Unique (documentOrder f.geometries)) (gs : List (Geo Ptr))
    (hl : ∀ n ∈ nodes gs, To f.models n.2.1 ∧ (match n.2.2 with
      | .plain => True
      | .reference p => Into (documentOrder f.geometries) p
      | .lamp p => To f.emitters p
      | .laser p => To f.emitters p
      | .wiring ps => ∀ p ∈ ps, To (documentOrder f.geometries) p
      | .support p => To (documentOrder f.geometries) p)) :
    resolveGeos f T (writeGeos gs) = (gs, []) := by
  induction gs using trees.induct with
  | case1 => rw [writeGeos, resolveGeos]
  | case2 me model own kids rest ih1 ih2 =>
    rw [nodes] at hl
    have h0 := hl (me, model, own) List.mem_cons_self
    have i1 := ih1 (fun n hn => hl n (List.mem_cons_of_mem _ (List.mem_append_left _ hn)))
    have i2 := ih2 (fun n hn => hl n (List.mem_cons_of_mem _ (List.mem_append_right _ hn)))
    rw [writeGeos, resolveGeos, i1, i2]
    have e1 : resolveModel f T me.id (text model) = (model, []) := by
      unfold resolveModel
      cases model with
      | none => rfl
      | some x =>
        have hx := h0.1 x rfl
        simp only [text, hm.1 x hx, if_false, getByRef_eq, show f.elements .model = f.models from rfl, scan_text hm hx]
    have eg : ∀ t, f.resolveGeometry T t = scan (documentOrder f.geometries) t := fun t => resolveGeometry_eq f T t
    have ee : ∀ t, f.getByRef T .emitter t = scan f.emitters t := fun t => getByRef_eq f T .emitter t
    have e2 : resolveOwn f T me.id (writeOwn own) = (own, []) := by
      have h1 := h0.2
      cases own with
      | plain => rfl
      | reference p =>
        simp only [writeOwn, resolveOwn]
        rw [look_into hg h1 eg]
        obtain ⟨x, hx, rfl⟩ := h1
        rfl
      | lamp p => simp only [writeOwn, resolveOwn]; rw [opt_text he h1 ee]
      | laser p => simp only [writeOwn, resolveOwn]; rw [opt_text he h1 ee]
      | wiring ps =>
        simp only [writeOwn, resolveOwn, List.map_map]
        congr 2
        refine (List.map_congr_left (fun p hp => ?_)).trans (List.map_id _)
        exact opt_text hg (h1 p hp) eg
      | support p => simp only [writeOwn, resolveOwn]; rw [opt_text hg h1 eg]
    rw [e1, e2]
    rfl

end Verif.Link
