import Verif.Lookup.Spec

/-!
# Lemmas about names and hash tables
-/

namespace Verif.Lookup

open Spec

theorem upperU_eq_iff (a b : BitVec 16) : upperU a = upperU b ↔ SameUnit a b := by
  unfold upperU SameUnit
  have ha := a.isLt
  have hb := b.isLt
  rw [← BitVec.toNat_inj (x := a) (y := b)]
  split <;> split <;> rw [← BitVec.toNat_inj] <;> (try rw [BitVec.toNat_sub]) <;> (try rw [BitVec.toNat_sub]) <;> simp <;> omega

theorem lowerU_eq_iff (a b : BitVec 16) : lowerU a = lowerU b ↔ SameUnit a b := by
  unfold lowerU SameUnit
  have ha := a.isLt
  have hb := b.isLt
  rw [← BitVec.toNat_inj (x := a) (y := b)]
  split <;> split <;> rw [← BitVec.toNat_inj] <;> (try rw [BitVec.toNat_add]) <;> (try rw [BitVec.toNat_add]) <;> simp <;> omega

theorem map_eq_iff_sameName (f : BitVec 16 → BitVec 16) (hf : ∀ a b, f a = f b ↔ SameUnit a b) (s t : Txt) :
    s.map f = t.map f ↔ SameName s t := by
  constructor
  · intro h
    refine ⟨by simpa using congrArg List.length h, fun i a b ha hb => ?_⟩
    have := congrArg (fun l => l[i]?) h
    simp only [List.getElem?_map, ha, hb, Option.map_some, Option.some.injEq] at this
    exact (hf a b).1 this
  · rintro ⟨hl, h⟩
    apply List.ext_getElem (by simpa using hl)
    intro i h1 h2
    simp only [List.getElem_map]
    simp only [List.length_map] at h1 h2
    exact (hf _ _).2 (h i _ _ (List.getElem?_eq_getElem h1) (List.getElem?_eq_getElem h2))

theorem eqNoCase_iff (s t : Txt) : eqNoCase s t = true ↔ SameName s t := by
  unfold eqNoCase
  rw [beq_iff_eq, map_eq_iff_sameName _ upperU_eq_iff]

theorem makeLower_iff (s t : Txt) : makeLower s = makeLower t ↔ SameName s t :=
  map_eq_iff_sameName _ lowerU_eq_iff s t

theorem Spec.SameName.refl (s : Txt) : SameName s s := (makeLower_iff s s).1 rfl

theorem Spec.SameName.symm {s t : Txt} (h : SameName s t) : SameName t s :=
  (makeLower_iff t s).1 ((makeLower_iff s t).2 h).symm

theorem Spec.SameName.trans {s t u : Txt} (h : SameName s t) (h' : SameName t u) : SameName s u :=
  (makeLower_iff s u).1 (((makeLower_iff s t).2 h).trans ((makeLower_iff t u).2 h'))

theorem eqNoCase_comm (s t : Txt) : eqNoCase s t = eqNoCase t s := by
  rw [Bool.eq_iff_iff, eqNoCase_iff, eqNoCase_iff]
  exact ⟨SameName.symm, SameName.symm⟩

theorem eqNoCase_congr_left {s t : Txt} (u : Txt) (h : SameName s t) : eqNoCase s u = eqNoCase t u := by
  rw [Bool.eq_iff_iff, eqNoCase_iff, eqNoCase_iff]
  exact ⟨fun h' => h.symm.trans h', fun h' => h.trans h'⟩

theorem eqNoCase_congr_right {s t : Txt} (u : Txt) (h : SameName s t) : eqNoCase u s = eqNoCase u t := by
  rw [eqNoCase_comm u s, eqNoCase_comm u t, eqNoCase_congr_left u h]

theorem eqNoCase_self (s : Txt) : eqNoCase s s = true := (eqNoCase_iff s s).2 (SameName.refl s)

/-! ## Tables -/

/-- No two keys of a table are equal up to case. -/
def Uniq {β : Type} (l : List (Txt × β)) : Prop := l.Pairwise (fun x y => ¬ SameName x.1 y.1)

theorem Uniq.eq_of_mem {β : Type} {l : List (Txt × β)} (h : Uniq l) {x y : Txt × β} (hx : x ∈ l) (hy : y ∈ l)
    (hs : SameName x.1 y.1) : x = y := by
  induction l with
  | nil => cases hx
  | cons a l ih =>
    rw [Uniq, List.pairwise_cons] at h
    rcases List.mem_cons.1 hx with rfl | hx' <;> rcases List.mem_cons.1 hy with rfl | hy'
    · rfl
    · exact absurd hs (h.1 y hy')
    · exact absurd hs.symm (h.1 x hx')
    · exact ih h.2 hx' hy'

/-- The search of a bucket is the search of the whole table. -/
theorem find_eq {β : Type} (T : Table β) (l : List (Txt × β)) (k : Txt) :
    T.find l k = (l.find? (fun e => eqNoCase e.1 k)).map Prod.snd := by
  unfold Table.find
  congr 2
  funext e
  by_cases h : eqNoCase e.1 k = true
  · rw [h, Bool.and_true, beq_iff_eq]
    unfold Table.bucket
    rw [(makeLower_iff e.1 k).2 ((eqNoCase_iff _ _).1 h)]
  · simp [Bool.not_eq_true _ ▸ h]

theorem find_eq_none {β : Type} (T : Table β) (l : List (Txt × β)) (k : Txt) :
    T.find l k = none ↔ ∀ e ∈ l, ¬ SameName e.1 k := by
  rw [find_eq, Option.map_eq_none_iff, List.find?_eq_none]
  constructor
  · intro h e he hs
    exact h e he ((eqNoCase_iff _ _).2 hs)
  · intro h e he hs
    exact h e he ((eqNoCase_iff _ _).1 hs)

theorem find_eq_some {β : Type} (T : Table β) {l : List (Txt × β)} (hu : Uniq l) (k : Txt) (v : β) :
    T.find l k = some v ↔ ∃ k', (k', v) ∈ l ∧ SameName k' k := by
  rw [find_eq, Option.map_eq_some_iff]
  constructor
  · rintro ⟨e, he, rfl⟩
    exact ⟨e.1, List.mem_of_find?_eq_some he, (eqNoCase_iff _ _).1 (List.find?_some (p := fun e : Txt × β => eqNoCase e.1 k) he)⟩
  · rintro ⟨k', hm, hs⟩
    cases hf : l.find? (fun e => eqNoCase e.1 k) with
    | none => exact absurd ((eqNoCase_iff _ _).2 hs) (List.find?_eq_none.1 hf _ hm)
    | some e =>
      refine ⟨e, rfl, ?_⟩
      have h1 := List.mem_of_find?_eq_some hf
      have h2 : SameName e.1 k := (eqNoCase_iff _ _).1 (List.find?_some (p := fun e : Txt × β => eqNoCase e.1 k) hf)
      rw [hu.eq_of_mem h1 hm (h2.trans hs.symm)]

theorem Uniq.emplace {β : Type} (T : Table β) {l : List (Txt × β)} (hu : Uniq l) (k : Txt) (v : β) :
    Uniq (T.emplace l k v) := by
  unfold Table.emplace
  cases h : T.find l k with
  | some w => exact hu
  | none =>
    have hn := (find_eq_none T l k).1 h
    have : Uniq ((k, v) :: l) := by
      rw [Uniq, List.pairwise_cons]
      exact ⟨fun e he hs => hn e he hs.symm, hu⟩
    exact (T.place_perm l (k, v)).symm.pairwise this (fun hxy hs => hxy hs.symm)

theorem find_emplace {β : Type} (T : Table β) {l : List (Txt × β)} (hu : Uniq l) (k k' : Txt) (v : β) :
    T.find (T.emplace l k v) k' = (T.find l k').or (if eqNoCase k k' then some v else none) := by
  have hu' := hu.emplace T k v
  unfold Table.emplace at hu' ⊢
  cases h : T.find l k with
  | some w =>
    simp only
    by_cases hk : eqNoCase k k' = true
    · obtain ⟨k1, hm, hs⟩ := (find_eq_some T hu k w).1 h
      rw [(find_eq_some T hu k' w).2 ⟨k1, hm, hs.trans ((eqNoCase_iff _ _).1 hk)⟩]
      rfl
    · rw [if_neg hk]
      simp
  | none =>
    rw [h] at hu'
    simp only at hu' ⊢
    have hmem : ∀ e, e ∈ T.place l (k, v) ↔ e = (k, v) ∨ e ∈ l := fun e => by
      rw [(T.place_perm l (k, v)).mem_iff, List.mem_cons]
    have hn := (find_eq_none T l k).1 h
    cases h' : T.find l k' with
    | some w =>
      obtain ⟨k1, hm, hs⟩ := (find_eq_some T hu k' w).1 h'
      exact (find_eq_some T hu' k' w).2 ⟨k1, (hmem _).2 (Or.inr hm), hs⟩
    | none =>
      simp only [Option.none_or]
      have hn' := (find_eq_none T l k').1 h'
      by_cases hk : eqNoCase k k' = true
      · rw [if_pos hk]
        exact (find_eq_some T hu' k' v).2 ⟨k, (hmem _).2 (Or.inl rfl), (eqNoCase_iff _ _).1 hk⟩
      · rw [if_neg hk, find_eq_none]
        intro e he hs
        rcases (hmem e).1 he with rfl | he'
        · exact hk ((eqNoCase_iff _ _).2 hs)
        · exact hn' e he' hs

theorem scan_cons (x : Named) (l : List Named) (k : Txt) :
    scan (x :: l) k = (if eqNoCase x.ref k then some x else none).or (scan l k) := by
  unfold scan
  rw [List.find?_cons]
  by_cases h : eqNoCase x.ref k = true
  · rw [h]; rfl
  · rw [Bool.not_eq_true] at h; rw [h]; rfl

theorem scan_append (l l' : List Named) (k : Txt) : scan (l ++ l') k = (scan l k).or (scan l' k) := by
  unfold scan
  rw [List.find?_append]

theorem uniq_nil {β : Type} : Uniq ([] : List (Txt × β)) := List.Pairwise.nil

theorem find_nil {β : Type} (T : Table β) (k : Txt) : T.find [] k = none := rfl

theorem fold_index (T : Table Named) (l : List Named) : ∀ (idx : List (Txt × Named)), Uniq idx →
    Uniq (l.foldl (fun idx x => T.emplace idx x.ref x) idx) ∧
      ∀ k, T.find (l.foldl (fun idx x => T.emplace idx x.ref x) idx) k = (T.find idx k).or (scan l k) := by
  induction l with
  | nil => intro idx hu; exact ⟨hu, fun k => by simp [scan]⟩
  | cons x l ih =>
    intro idx hu
    obtain ⟨h1, h2⟩ := ih (T.emplace idx x.ref x) (hu.emplace T _ _)
    refine ⟨h1, fun k => ?_⟩
    rw [List.foldl_cons, h2, find_emplace T hu, scan_cons, Option.or_assoc]

theorem find_buildIndex (T : Table Named) (l : List Named) (k : Txt) : T.find (buildIndex T l) k = scan l k := by
  unfold buildIndex
  rw [(fold_index T l [] uniq_nil).2 k, find_nil]
  rfl

theorem find_indexGeo (T : Table Named) (idx : List (Txt × Named)) (gs : List GTree) : Uniq idx →
    Uniq (indexGeo T idx gs) ∧ ∀ k, T.find (indexGeo T idx gs) k = (T.find idx k).or (scan (documentOrder gs) k) := by
  fun_induction indexGeo T idx gs with
  | case1 idx => intro hu; exact ⟨hu, fun k => by simp [documentOrder, scan]⟩
  | case2 idx n kids rest ih1 ih2 =>
    intro hu
    obtain ⟨a1, a2⟩ := ih1 (hu.emplace T _ _)
    obtain ⟨b1, b2⟩ := ih2 a1
    refine ⟨b1, fun k => ?_⟩
    rw [b2, a2, find_emplace T hu, documentOrder, scan_cons, scan_append]
    simp only [Option.or_assoc]

theorem walkGeo_eq (gs : List GTree) (k : Txt) : walkGeo gs k = scan (documentOrder gs) k := by
  fun_induction walkGeo gs k with
  | case1 => simp [documentOrder, scan]
  | case2 k n kids rest h => rw [documentOrder, scan_cons, if_pos h]; rfl
  | case3 k n kids rest h m hm ih1 =>
    rw [documentOrder, scan_cons, if_neg h, scan_append, ← ih1, hm]; rfl
  | case4 k n kids rest h hm ih1 ih2 =>
    rw [documentOrder, scan_cons, if_neg h, scan_append, ← ih1, hm, ← ih2]; rfl

theorem chanLoop_eq (gs : List GTree) (k : Txt) : chanLoop gs k = scan (documentOrder gs) k := by
  fun_induction chanLoop gs k with
  | case1 => simp [documentOrder, scan]
  | case2 k n kids rest h => rw [documentOrder, scan_cons, if_pos h]; rfl
  | case3 k n kids rest h m hm =>
    rw [documentOrder, scan_cons, if_neg h, scan_append, ← walkGeo_eq, hm]; rfl
  | case4 k n kids rest h hm ih =>
    rw [documentOrder, scan_cons, if_neg h, scan_append, ← walkGeo_eq, hm, ← ih]; rfl

theorem scan_first (l : List Named) (k : Txt) : FirstNamed l k (scan l k) := by
  unfold FirstNamed
  cases h : scan l k with
  | none =>
    intro y hy hs
    exact List.find?_eq_none.1 h y hy ((eqNoCase_iff _ _).2 hs)
  | some x =>
    obtain ⟨h1, pre, post, h2, h3⟩ := List.find?_eq_some_iff_append.1 h
    refine ⟨pre, post, h2, (eqNoCase_iff _ _).1 h1, fun y hy hs => ?_⟩
    have := h3 y hy
    rw [(eqNoCase_iff _ _).2 hs] at this
    exact absurd this (by decide)

/-- The first element with a name is unique. -/
theorem Spec.FirstNamed.unique {l : List Named} {k : Txt} {r : Option Named} (h : FirstNamed l k r) : r = scan l k := by
  cases r with
  | none =>
    symm
    exact List.find?_eq_none.2 (fun y hy hs => h y hy ((eqNoCase_iff _ _).1 hs))
  | some x =>
    obtain ⟨pre, post, h1, h2, h3⟩ := h
    symm
    refine List.find?_eq_some_iff_append.2 ⟨(eqNoCase_iff _ _).2 h2, pre, post, h1, fun y hy => ?_⟩
    cases hb : eqNoCase y.ref k with
    | false => rfl
    | true => exact absurd ((eqNoCase_iff _ _).1 hb) (h3 y hy)

end Verif.Lookup
