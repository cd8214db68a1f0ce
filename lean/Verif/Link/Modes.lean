import Verif.Link.Lemmas

/-!
# Lemmas about the links of a mode
-/

namespace Verif.Link

open Lookup Lookup.Spec Spec

/-! ## Texts of channels and functions -/

/-- A channel as it is read: the names of channel and logical channels are not in the description. -/
def fresh {C M : Type} (c : Chan Ptr C M) : Chan Ptr C M :=
  { c with name := [], logicals := c.logicals.map (fun l => { l with name := [] }) }

theorem head_attr {M : Type} (ls : List (Logical Ptr M)) :
    (((ls.map (fun l => ({ l with name := [] } : Logical Ptr M))).map Logical.toLc).head?.bind (·.attr)) =
      ((ls.map Logical.toLc).head?.bind (·.attr)) := by
  cases ls <;> rfl

theorem channelText_fresh {C M : Type} (c : Chan Ptr C M) : channelText (fresh c).toCh = channelText c.toCh := by
  unfold channelText
  show _ ++ _ ++ ((((c.logicals.map _).map Logical.toLc).head?.bind (·.attr)).getD []) = _
  rw [head_attr]
  rfl

theorem canonFns_fresh {C M : Type} (c : Chan Ptr C M) : canonFns (fresh c).toCh = canonFns c.toCh := by
  unfold canonFns
  have : (fresh c).toCh.logicals = c.logicals.map (fun l => ({ l with name := [] } : Logical Ptr M).toLc) := by
    show (c.logicals.map _).map Logical.toLc = _
    rw [List.map_map]; rfl
  rw [this]
  have : c.toCh.logicals = c.logicals.map Logical.toLc := rfl
  rw [this, List.flatMap_map, List.flatMap_map]
  apply flatMap_congr_mem
  intro l _
  show (l.fns.map Func.toFn).zipIdx.map _ = (l.fns.map Func.toFn).zipIdx.map _
  apply List.map_congr_left
  intro p _
  unfold fnText
  rw [channelText_fresh]
  rfl

theorem map_ne_none {α β : Type} {p : Option α} {f : α → β} (h : p ≠ none) : p.map f ≠ none := by
  cases p <;> simp_all

theorem resolved_fresh {F : Mem} {c : Chan Ptr (Option Nat) Master} (h : ChanOk F c) : Resolved (fresh c).toCh := by
  refine ⟨map_ne_none (into_ne h.geom), ?_, ?_, ?_, rfl, ?_⟩
  · simpa [fresh, Chan.toCh] using h.logicals
  · intro l hl
    simp only [fresh, Chan.toCh, List.mem_map] at hl
    obtain ⟨_, ⟨k, hk, rfl⟩, rfl⟩ := hl
    exact map_ne_none (into_ne (h.attrs k hk))
  · intro l hl f hf
    simp only [fresh, Chan.toCh, List.mem_map] at hl
    obtain ⟨_, ⟨k, hk, rfl⟩, rfl⟩ := hl
    simp only [Logical.toLc, List.mem_map] at hf
    obtain ⟨x, hx, rfl⟩ := hf
    exact map_ne_none (into_ne (h.fns k hk x hx).attr)
  · intro l hl
    simp only [fresh, Chan.toCh, List.mem_map] at hl
    obtain ⟨_, ⟨k, hk, rfl⟩, rfl⟩ := hl
    rfl

/-- The name of a consistent channel, generated or not. -/
theorem getName_ok {F : Mem} {c : Chan Ptr (Option Nat) Master} (h : ChanOk F c) : c.toCh.getName = some (channelText c.toCh) := by
  have hr := getName_resolved _ (resolved_fresh h)
  rw [channelText_fresh] at hr
  unfold Ch.getName
  rcases h.name with hn | hn
  · rw [if_neg (by show ¬ c.name ≠ []; simp [hn])]
    unfold Ch.getName at hr
    rw [if_neg (by show ¬ (fresh c).name ≠ []; simp [fresh])] at hr
    rw [← hr]
    show (match c.logicals.map Logical.toLc with | [] => _ | l :: _ => _) =
      (match (c.logicals.map _).map Logical.toLc with | [] => _ | l :: _ => _)
    cases c.logicals <;> rfl
  · rw [if_pos (by show c.name ≠ []; rw [hn]; exact channelText_ne _)]
    exact congrArg some hn

/-- The references of the functions of a consistent channel, generated or not. -/
theorem fnRefs_ok {F : Mem} {c : Chan Ptr (Option Nat) Master} (h : ChanOk F c) :
    c.toCh.fnRefs.map (fun p => (p.1, p.2.id)) = (canonFns c.toCh).map (fun n => (some n.ref, n.id)) := by
  unfold Ch.fnRefs canonFns
  rw [List.map_flatMap, List.map_flatMap]
  apply flatMap_congr_mem
  intro l hl
  have hl' : l ∈ c.logicals.map Logical.toLc := hl
  obtain ⟨k, hk, rfl⟩ := List.mem_map.1 hl'
  rw [List.map_map, List.map_map]
  apply List.map_congr_left
  intro p hp
  have hf : p.1 ∈ k.fns.map Func.toFn := by
    have := List.mem_zipIdx hp
    exact this.2.2 ▸ List.getElem_mem _
  obtain ⟨x, hx, hxe⟩ := List.mem_map.1 hf
  have ha : p.1.attr ≠ none := by rw [← hxe]; exact map_ne_none (into_ne (h.fns k hk x hx).attr)
  simp only [Function.comp_apply, fnRef, getName_ok h, Option.map_some, refName_eq p.1 p.2 ha]
  have hn : k.toLc.getName = k.toLc.attr.getD [] := by
    obtain ⟨a, -, hae⟩ := h.attrs k hk
    have e : k.toLc.attr.getD [] = a.ref := by simp [Logical.toLc, hae]
    rw [e]
    unfold Lc.getName
    rcases h.names k hk with h1 | h1
    · rw [if_neg (by show ¬ k.name ≠ []; simp [h1]), e]
    · rw [hae] at h1
      have h1' : k.toLc.name = a.ref := h1
      rw [h1']
      split
      · rfl
      · rw [e]
  rw [hn]
  rfl

theorem fnsOf_canon {C M : Type} (c : Chan Ptr C M) : (canonFns c.toCh).map Named.id = fnsOf c := by
  unfold canonFns fnsOf
  rw [List.map_flatMap]
  show (c.logicals.map Logical.toLc).flatMap _ = _
  rw [List.flatMap_map]
  apply flatMap_congr_mem
  intro l _
  show ((l.fns.map Func.toFn).zipIdx.map _).map Named.id = _
  rw [List.map_map]
  have : (Named.id ∘ fun (p : Fn × Nat) => (⟨p.1.id, fnText c.toCh l.toLc p.2 p.1⟩ : Named)) = Fn.id ∘ Prod.fst := rfl
  rw [this, ← List.map_map, List.zipIdx_map_fst, List.map_map]
  rfl

/-! ## A consistent mode -/

theorem unique_fresh {F : Mem} {m : Mode Ptr (Option Nat) Master} (h : ModeOk F m) :
    UniqueNames (m.chans.map (fun c => (fresh c).toCh)) := by
  obtain ⟨h1, h2, h3, h4, h5⟩ := h.unique
  refine ⟨?_, ?_, ?_, ?_, ?_⟩
  · rw [List.pairwise_map] at h1 ⊢
    simpa only [channelText_fresh] using h1
  · intro c hc
    obtain ⟨d, hd, rfl⟩ := List.mem_map.1 hc
    have := h2 d.toCh (List.mem_map_of_mem hd)
    have e : d.toCh.logicals = d.logicals.map Logical.toLc := rfl
    rw [e, List.pairwise_map] at this
    show ((d.logicals.map _).map Logical.toLc).Pairwise _
    rw [List.map_map, List.pairwise_map]
    exact this
  · intro c hc l hl
    obtain ⟨d, hd, rfl⟩ := List.mem_map.1 hc
    simp only [fresh, Chan.toCh, List.mem_map] at hl
    obtain ⟨_, ⟨k, hk, rfl⟩, rfl⟩ := hl
    exact h3 d.toCh (List.mem_map_of_mem hd) k.toLc (List.mem_map_of_mem hk)
  · intro c hc
    obtain ⟨d, hd, rfl⟩ := List.mem_map.1 hc
    rw [channelText_fresh]
    exact h4 d.toCh (List.mem_map_of_mem hd)
  · intro c hc l hl
    obtain ⟨d, hd, rfl⟩ := List.mem_map.1 hc
    simp only [fresh, Chan.toCh, List.mem_map] at hl
    obtain ⟨_, ⟨k, hk, rfl⟩, rfl⟩ := hl
    exact h5 d.toCh (List.mem_map_of_mem hd) k.toLc (List.mem_map_of_mem hk)

/-- The references of the functions of a mode. -/
def modeFns (m : Mode Ptr (Option Nat) Master) : List Named := m.chans.flatMap (fun c => canonFns c.toCh)

theorem fresh_fns (m : Mode Ptr (Option Nat) Master) :
    (m.chans.map (fun c => (fresh c).toCh)).flatMap canonFns = modeFns m := by
  rw [List.flatMap_map]
  apply flatMap_congr_mem
  intro c _
  exact canonFns_fresh c

theorem modeFns_ids (m : Mode Ptr (Option Nat) Master) : (modeFns m).map Named.id = m.chans.flatMap fnsOf := by
  unfold modeFns
  rw [List.map_flatMap]
  apply flatMap_congr_mem
  intro c _
  exact fnsOf_canon c

theorem fnAttr_ok {F : Mem} {m : Mode Ptr (Option Nat) Master} (h : ModeOk F m) (i : Nat) (hi : i ∈ m.chans.flatMap fnsOf) :
    ∃ n ∈ modeFns m, n.id = i ∧ fnAttr (m.chans.map Chan.toCh) (some i) = some n.ref := by
  have hm : ((m.chans.map Chan.toCh).flatMap Ch.fnRefs).map (fun p => (p.1, p.2.id)) =
      (modeFns m).map (fun n => (some n.ref, n.id)) := by
    unfold modeFns
    rw [List.flatMap_map, List.map_flatMap, List.map_flatMap]
    exact flatMap_congr_mem (fun c hc => fnRefs_ok (h.chans c hc))
  have hex : ∃ p, ((m.chans.map Chan.toCh).flatMap Ch.fnRefs).find? (fun q => q.2.id == i) = some p := by
    rw [← modeFns_ids] at hi
    obtain ⟨n, hn, hni⟩ := List.mem_map.1 hi
    have : (some n.ref, n.id) ∈ (modeFns m).map (fun n => (some n.ref, n.id)) := List.mem_map_of_mem hn
    rw [← hm] at this
    obtain ⟨p, hp, hpe⟩ := List.mem_map.1 this
    rw [← Option.isSome_iff_exists, List.find?_isSome]
    refine ⟨p, hp, ?_⟩
    simp only [Prod.mk.injEq] at hpe
    simp [hpe.2, hni]
  obtain ⟨p, hp⟩ := hex
  have hpid : p.2.id = i := by simpa using List.find?_some hp
  have hpm := List.mem_of_find?_eq_some hp
  have : (p.1, p.2.id) ∈ (modeFns m).map (fun n => (some n.ref, n.id)) := by
    rw [← hm]
    exact List.mem_map.2 ⟨p, hpm, rfl⟩
  obtain ⟨n, hn, hne⟩ := List.mem_map.1 this
  simp only [Prod.mk.injEq] at hne
  refine ⟨n, hn, by rw [hne.2, hpid], ?_⟩
  unfold fnAttr
  simp only [hp, Option.bind_some, ← hne.1]

theorem chAttr_ok {F : Mem} {m : Mode Ptr (Option Nat) Master} (h : ModeOk F m) (i : Nat) (hi : i ∈ m.chans.map (·.id)) :
    ∃ c ∈ m.chans, c.id = i ∧ chAttr (m.chans.map Chan.toCh) (some i) = some (channelText c.toCh) := by
  have hex : ∃ d, (m.chans.map Chan.toCh).find? (fun c => c.id == i) = some d := by
    obtain ⟨c, hc, hci⟩ := List.mem_map.1 hi
    rw [← Option.isSome_iff_exists, List.find?_isSome]
    exact ⟨c.toCh, List.mem_map_of_mem hc, by simp [Chan.toCh, hci]⟩
  obtain ⟨d, hd⟩ := hex
  have hdi : d.id = i := by simpa using List.find?_some hd
  obtain ⟨c, hc, rfl⟩ := List.mem_map.1 (List.mem_of_find?_eq_some hd)
  refine ⟨c, hc, hdi, ?_⟩
  unfold chAttr
  simp only [hd, Option.bind_some]
  exact getName_ok (h.chans c hc)

theorem modeFns_ne {m : Mode Ptr (Option Nat) Master} : ∀ n ∈ modeFns m, n.ref ≠ [] := by
  intro n hn
  obtain ⟨c, -, hc⟩ := List.mem_flatMap.1 hn
  obtain ⟨l, -, hl⟩ := List.mem_flatMap.1 hc
  obtain ⟨p, -, rfl⟩ := List.mem_map.1 hl
  simp [fnText_eq]

/-- The lookups of a mode that was read from what was written. -/
theorem load_ok {F : Mem} {m : Mode Ptr (Option Nat) Master} (h : ModeOk F m) (T : Table Named) :
    ∃ L, load T (m.chans.map (fun c => (fresh c).toCh)) = some L ∧
      (∀ n ∈ modeFns m, L.getFunction T n.ref = some (some n.id) ∧ L.modeMaster T n.ref = some (.function n.id)) ∧
      (∀ c ∈ m.chans, L.getChannel T (channelText c.toCh) = some (some c.id) ∧
        L.modeMaster T (channelText c.toCh) = some (.channel c.id)) ∧
      L.getChannel T [] = some none ∧ L.getFunction T [] = some none := by
  have hres : ∀ c ∈ m.chans.map (fun c => (fresh c).toCh), Resolved c := by
    intro c hc
    obtain ⟨d, hd, rfl⟩ := List.mem_map.1 hc
    exact resolved_fresh (h.chans d hd)
  have hu := unique_fresh h
  obtain ⟨L, hL, -, hch, hfn⟩ := load_resolved T _ hres
  rw [fresh_fns] at hfn
  have hpw := canon_pairwise _ hu
  rw [fresh_fns] at hpw
  have hec : (m.chans.map (fun c => (fresh c).toCh)).map canonCh = m.chans.map (fun c => (⟨c.id, channelText c.toCh⟩ : Named)) := by
    rw [List.map_map]
    apply List.map_congr_left
    intro c _
    show (⟨c.id, channelText (fresh c).toCh⟩ : Named) = _
    rw [channelText_fresh]
  rw [hec] at hch
  have hcp : (m.chans.map (fun c => (⟨c.id, channelText c.toCh⟩ : Named))).Pairwise (fun x y => ¬ SameName x.ref y.ref) := by
    have := h.unique.chans
    rw [List.pairwise_map] at this ⊢
    exact this
  refine ⟨L, hL, ?_, ?_, ?_, ?_⟩
  · intro n hn
    have h1 : L.getFunction T n.ref = some (some n.id) := by
      rw [hfn, scan_unique _ hpw n hn]; rfl
    refine ⟨h1, ?_⟩
    have h2 : scan (m.chans.map (fun c => (⟨c.id, channelText c.toCh⟩ : Named))) n.ref = none := by
      refine List.find?_eq_none.2 (fun y hy hb => ?_)
      obtain ⟨d, hd, rfl⟩ := List.mem_map.1 hy
      obtain ⟨c, hcm, hx'⟩ := List.mem_flatMap.1 hn
      obtain ⟨l, hl, hx''⟩ := List.mem_flatMap.1 hx'
      obtain ⟨p, _, rfl⟩ := List.mem_map.1 hx''
      have := (eqNoCase_iff _ _).1 hb
      simp only [fnText_eq] at this
      exact sameName_no_dot _ _ _ (h.unique.chanDots _ (List.mem_map_of_mem hd)) this
    unfold Loaded.modeMaster
    rw [hch, h2, h1]
    rfl
  · intro c hc
    have h1 : L.getChannel T (channelText c.toCh) = some (some c.id) := by
      rw [hch]
      have := scan_unique _ hcp ⟨c.id, channelText c.toCh⟩ (List.mem_map.2 ⟨c, hc, rfl⟩)
      dsimp only at this
      rw [this]
      rfl
    refine ⟨h1, ?_⟩
    unfold Loaded.modeMaster
    rw [h1]
    rfl
  · rw [hch]
    have : scan (m.chans.map (fun c => (⟨c.id, channelText c.toCh⟩ : Named))) [] = none := by
      refine List.find?_eq_none.2 (fun y hy hb => ?_)
      obtain ⟨d, hd, rfl⟩ := List.mem_map.1 hy
      have := ((eqNoCase_iff _ _).1 hb).1
      exact channelText_ne _ (List.length_eq_zero_iff.1 (by simpa using this))
    rw [this]
    rfl
  · rw [hfn]
    have : scan (modeFns m) [] = none := by
      refine List.find?_eq_none.2 (fun y hy hb => ?_)
      have := ((eqNoCase_iff _ _).1 hb).1
      exact modeFns_ne y hy (List.length_eq_zero_iff.1 (by simpa using this))
    rw [this]
    rfl

theorem eq_of_id {l : List Named} (h : (l.map Named.id).Nodup) {x y : Named} (hx : x ∈ l) (hy : y ∈ l) (he : x.id = y.id) :
    x = y := by
  induction l with
  | nil => cases hx
  | cons a l ih =>
    rw [List.map_cons, List.nodup_cons] at h
    rcases List.mem_cons.1 hx with rfl | hx' <;> rcases List.mem_cons.1 hy with rfl | hy'
    · rfl
    · exact absurd (he ▸ List.mem_map_of_mem hy') h.1
    · exact absurd (he ▸ List.mem_map_of_mem hx') h.1
    · exact ih h.2 hx' hy'

/-- The written initial function is found in its channel. -/
theorem initial_ok {F : Mem} {m : Mode Ptr (Option Nat) Master} (h : ModeOk F m) {c : Chan Ptr (Option Nat) Master}
    (hc : c ∈ m.chans) : ∃ i t, c.initial = some i ∧ fnAttr (m.chans.map Chan.toCh) c.initial = some t ∧ t ≠ [] ∧
      scanFn t (fresh c).toCh.fnRefs = some (some i) := by
  obtain ⟨i, hi, hci⟩ := (h.chans c hc).initial
  have hi' : i ∈ m.chans.flatMap fnsOf := List.mem_flatMap.2 ⟨c, hc, hi⟩
  obtain ⟨n, hn, hni, hnt⟩ := fnAttr_ok h i hi'
  refine ⟨i, n.ref, hci, by rw [hci]; exact hnt, modeFns_ne n hn, ?_⟩
  have hnc : n ∈ canonFns c.toCh := by
    rw [← fnsOf_canon] at hi
    obtain ⟨k, hk, hki⟩ := List.mem_map.1 hi
    have : n = k := eq_of_id (by rw [modeFns_ids]; exact h.fnIds) hn (List.mem_flatMap.2 ⟨c, hc, hk⟩) (by rw [hni, hki])
    rw [this]; exact hk
  have hr := fnRefs_resolved _ (resolved_fresh (h.chans c hc))
  rw [scanFn_of _ _ _ hr, canonFns_fresh]
  have hpw : (canonFns c.toCh).Pairwise (fun x y => ¬ SameName x.ref y.ref) := by
    have h1 := canon_pairwise _ (unique_fresh h)
    rw [fresh_fns] at h1
    exact (List.pairwise_flatMap.1 h1).1 c hc
  rw [scan_unique _ hpw n hnc]
  simp [hni]

end Verif.Link
