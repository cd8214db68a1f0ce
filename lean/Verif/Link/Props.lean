import Verif.Link.Back

/-!
# C68: links survive writing and reading
-/

namespace Verif.Link

open Lookup Lookup.Spec Spec

theorem lastFeature_unique (x : Named) (gs : List (Txt × List Named)) : ∀ (acc : Ptr),
    (∀ y ∈ gs.flatMap featureRefs, SameName y.ref x.ref → y = x) → (acc = none ∨ acc = some x) →
    (x ∈ gs.flatMap featureRefs ∨ acc = some x) → lastFeature x.ref acc gs = some x := by
  induction gs with
  | nil =>
    intro acc _ _ h
    rcases h with h | h
    · simp at h
    · exact h
  | cons g gs ih =>
    intro acc hu ha hx
    rw [lastFeature]
    rw [List.flatMap_cons] at hu hx
    have hs : ∀ y, scan (featureRefs g) x.ref = some y → y = x := by
      intro y hy
      exact hu y (List.mem_append_left _ (List.mem_of_find?_eq_some hy))
        ((eqNoCase_iff _ _).1 (List.find?_some (p := fun z : Named => eqNoCase z.ref x.ref) hy))
    refine ih _ (fun y hy => hu y (List.mem_append_right _ hy)) ?_ ?_
    · cases hsc : scan (featureRefs g) x.ref with
      | none => simpa using ha
      | some y => right; rw [hs y hsc]; rfl
    · rcases hx with hx | hx
      · rcases List.mem_append.1 hx with h1 | h1
        · right
          cases hsc : scan (featureRefs g) x.ref with
          | none =>
            have := List.find?_eq_none.1 hsc x h1
            exact absurd (eqNoCase_self x.ref) this
          | some y => rw [hs y hsc]; rfl
        · exact Or.inl h1
      · right
        cases hsc : scan (featureRefs g) x.ref with
        | none => rw [hx]; rfl
        | some y => rw [hs y hsc]; rfl

theorem unique_eq {l : List Named} (hp : l.Pairwise (fun x y => ¬ SameName x.ref y.ref)) {x y : Named} (hx : x ∈ l) (hy : y ∈ l)
    (h : SameName x.ref y.ref) : x = y := by
  have h1 := scan_unique l hp x hx
  have h2 := scan_unique l hp y hy
  have : scan l x.ref = scan l y.ref := by
    unfold scan
    congr 1
    funext z
    exact eqNoCase_congr_right _ h
  rw [h1, h2] at this
  exact Option.some.inj this

theorem resolveAttr_ok {F : Mem} (h : Consistent F) (T : Table Named) (s : St) (hs : s.attrs = F.pool.attrState T)
    (hf : s.features = F.features) (a : Attr Ptr) (ha : a ∈ F.attrs) :
    resolveAttr T F.groups s (writeAttr a) = some (s, a, []) := by
  obtain ⟨h1, h2, h3, h4⟩ := h.attrLinks a ha
  have hg : opt (scan F.groups) (text a.group) = a.group := opt_text h.groups h1 (fun _ => rfl)
  have hge : (if text a.group ≠ [] ∧ a.group = none then [(Code.activationGroup, a.me.id)] else []) = ([] : List Err) := by
    rw [if_neg]
    rintro ⟨h5, h6⟩
    rw [h6] at h5
    exact h5 rfl
  unfold resolveAttr writeAttr
  simp only
  rw [hg, hge]
  cases hfe : a.feature with
  | none =>
    have hm := h4 hfe
    simp only [text, if_true]
    cases a
    simp_all
  | some x =>
    have hx := h2 x hfe
    have hne : x.ref ≠ [] := h.features.1 x hx
    have hlast : lastFeature x.ref none s.features = some x := by
      rw [hf]
      exact lastFeature_unique x F.features none (fun y hy hyx => unique_eq h.features.2 hy hx hyx) (Or.inl rfl) (Or.inl hx)
    have hmain : resolveMain s T a.me.id (text a.main) = some (a.main, []) := by
      unfold resolveMain
      cases hma : a.main with
      | none => simp [text]
      | some y =>
        have hy := h3 y hma
        have hyne : y.ref ≠ [] := h.attrs.1 y hy
        have e := getAttr_ok h T s hs (p := some y) ⟨y, hy, rfl⟩
        simp only [text] at e
        have hno : (s.attrs.noFeature.isNone && s.attrs.noFeature.isSome) = false := by
          cases s.attrs.noFeature <;> simp
        simp [text, hyne, e, hno]
    simp only [text, hne, if_false, hlast, reduceCtorEq]
    simp only [text] at hmain
    rw [hmain]
    cases a
    simp_all

/-- C68: if the names of a fixture are unique in their kinds and its links lead to its own elements, then writing succeeds, and
reading what was written, with any implementation of the hash tables, gives the same elements with the same links everywhere
(activation groups, features, main attributes, filters of wheel slots, models, linked geometries, emitters, pin patches,
geometries of modes and channels, initial functions, attributes, wheels, filters, colour spaces, gamuts, profiles, sub-physical
units, mode masters, relations, macros, personalities), and reports nothing. -/
theorem C68_links_survive (F : Mem) (h : Consistent F) (T : Table Named) (n : Nat) :
    ∃ W F', write F = some W ∧ resolve T n W = some (F', []) ∧ links F' = links F := by
  let s : St := ⟨F.pool.attrState T, n, [], F.features⟩
  have hgeo : resolveGeos F.pool T (writeGeos F.geos) = (F.geos, []) := by
    refine resolveGeos_write F.pool T h.models h.emitters (by rw [pool_geos]; exact h.geometries) F.geos ?_
    intro k hk
    obtain ⟨h1, h2⟩ := h.geometryLinks k hk
    refine ⟨h1, ?_⟩
    rw [pool_geos]
    revert h2
    cases k.2.2 <;> exact id
  have hmodes : ∃ rs, thread (resolveMode F.pool T) s (F.modes.map docMode) = some (s, rs, []) ∧
      thread (masterMode T) () rs = some ((), F.modes.map backMode, []) := by
    have hall : ∀ m ∈ F.modes, ∃ r, resolveMode F.pool T s (docMode m) = some (s, r, []) ∧
        masterMode T () r = some ((), backMode m, []) := fun m hm => resolveMode_ok h T s rfl (h.modeLinks m hm)
    generalize F.modes = ms at hall
    induction ms with
    | nil => exact ⟨[], rfl, rfl⟩
    | cons m ms ih =>
      obtain ⟨r, hr1, hr2⟩ := hall m List.mem_cons_self
      obtain ⟨rs, h1, h2⟩ := ih (fun k hk => hall k (List.mem_cons_of_mem _ hk))
      refine ⟨r :: rs, ?_, ?_⟩
      · rw [List.map_cons, thread, hr1, Option.bind_some, h1]; rfl
      · rw [thread, hr2, Option.bind_some, h2]; rfl
  obtain ⟨rs, hr1, hr2⟩ := hmodes
  have hattrs : thread (resolveAttr T F.groups) s (F.attrs.map writeAttr) = some (s, F.attrs, []) := by
    have := thread_map (g := resolveAttr T F.groups) (h := id) (u := writeAttr) s F.attrs
      (fun a ha => resolveAttr_ok h T s rfl rfl a ha)
    rw [this, List.map_id]
  have hme : (F.modes.map docMode).map (·.me) = F.modes.map (·.me) := by
    rw [List.map_map]; rfl
  have hp : ∀ p ∈ F.persons, resolvePerson (F.modes.map (·.me)) (p.1, text p.2) = (p, []) := by
    intro p hp
    obtain ⟨x, hx, hpx⟩ := h.personLinks p hp
    unfold resolvePerson
    have e : text p.2 = x.ref := by rw [hpx]; rfl
    simp only [e, scan_text h.modes hx]
    rw [← hpx]
  have hpe : (F.persons.map (fun p => (p.1, text p.2))).map (resolvePerson (F.modes.map (·.me))) = F.persons.map (fun p => (p, [])) := by
    rw [List.map_map]
    exact List.map_congr_left (fun p hp' => hp p hp')
  have hw : (F.wheels.map (fun w => (w.1, w.2.map text))).map (fun w => (w.1, w.2.map (opt (F.pool.getByRef T .filter)))) = F.wheels := by
    rw [List.map_map]
    refine (List.map_congr_left (fun w hw => ?_)).trans (List.map_id _)
    simp only [Function.comp_apply, List.map_map]
    have : w.2.map (opt (F.pool.getByRef T .filter) ∘ text) = w.2 := by
      refine (List.map_congr_left (fun p hp' => ?_)).trans (List.map_id _)
      exact opt_text h.filters (h.slotLinks w hw p hp') (fun t => getByRef_eq F.pool T .filter t)
    rw [this]
    rfl
  refine ⟨doc F, { F with modes := F.modes.map backMode }, write_ok h, ?_, ?_⟩
  · unfold resolve
    simp only
    rw [pool_doc]
    simp only [doc]
    rw [hr1, Option.bind_some]
    simp only
    rw [hr2, Option.bind_some, hattrs, Option.map_some, hgeo, hme, hpe, hw]
    simp only [s, List.append_nil, List.map_map]
    have e1 : F.persons.map (Prod.fst ∘ fun p => (p, ([] : List Err))) = F.persons := by
      refine (List.map_congr_left (fun p _ => ?_)).trans (List.map_id _); rfl
    have e2 : (F.persons.map (fun p => (p, ([] : List Err)))).flatMap Prod.snd = [] := by
      rw [List.flatMap_map]
      simp
    rw [e1, e2]
    rfl
  · unfold links
    simp only [List.map_map]
    congr 1
    apply List.map_congr_left
    intro m _
    simp only [Function.comp_apply, backMode, List.map_map]
    congr 1
    apply List.map_congr_left
    intro c _
    simp only [Function.comp_apply]
    rw [unnamed_name, unnamed_fresh]

end Verif.Link
