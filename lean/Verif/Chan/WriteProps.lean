import Verif.Chan.ReadProps

/-!
# Properties of writing channel sets (C26)
-/

namespace Verif.Chan

open Spec

variable {ν : Type}

/-- The channel sets lie inside the function's range and do not overlap, in whatever order. -/
structure Spec.WellFormed (fnStart fnEnd : Nat) (sets : List (ChSet ν)) : Prop where
  inside : ∀ s ∈ sets, fnStart ≤ s.start ∧ s.start ≤ s.dmxEnd fnEnd ∧ s.dmxEnd fnEnd ≤ fnEnd
  disjoint : sets.Pairwise (fun a b => a.dmxEnd fnEnd < b.start ∨ b.dmxEnd fnEnd < a.start)

theorem insertSet_perm (s : ChSet ν) (l : List (ChSet ν)) : (insertSet s l).Perm (s :: l) := by
  induction l with
  | nil => exact List.Perm.refl _
  | cons t r ih =>
    rw [insertSet]
    split
    · exact List.Perm.refl _
    · exact (List.Perm.cons t ih).trans (List.Perm.swap s t r)

theorem sortSets_perm (l : List (ChSet ν)) : (sortSets l).Perm l := by
  induction l with
  | nil => exact List.Perm.refl _
  | cons s t ih => exact (insertSet_perm s _).trans (List.Perm.cons s ih)

theorem insertSet_sorted (s : ChSet ν) (l : List (ChSet ν)) (h : l.Pairwise (fun a b => a.start ≤ b.start)) :
    (insertSet s l).Pairwise (fun a b => a.start ≤ b.start) := by
  induction l with
  | nil => simp [insertSet]
  | cons t r ih =>
    have h' := List.pairwise_cons.1 h
    rw [insertSet]
    split
    · rename_i hlt
      refine List.pairwise_cons.2 ⟨?_, h⟩
      intro x hx
      rcases List.mem_cons.1 hx with rfl | hx
      · omega
      · have := h'.1 x hx; omega
    · rename_i hlt
      refine List.pairwise_cons.2 ⟨?_, ih h'.2⟩
      intro x hx
      rcases List.mem_cons.1 ((insertSet_perm s r).mem_iff.1 hx) with rfl | hx
      · omega
      · exact h'.1 x hx

theorem sortSets_sorted (l : List (ChSet ν)) : (sortSets l).Pairwise (fun a b => a.start ≤ b.start) := by
  induction l with
  | nil => exact List.Pairwise.nil
  | cons s t ih => exact insertSet_sorted s _ ih

theorem insertSet_head (s : ChSet ν) (l : List (ChSet ν)) (h : ∀ x ∈ l, s.start < x.start) : insertSet s l = s :: l := by
  cases l with
  | nil => rfl
  | cons t r => rw [insertSet, if_pos (h t (by simp))]

theorem sortSets_of_inc (l : List (ChSet ν)) (h : Inc l) : sortSets l = l := by
  induction l with
  | nil => rfl
  | cons s t ih =>
    have h' := List.pairwise_cons.1 h
    rw [sortSets, ih h'.2, insertSet_head s t h'.1]

/-- Sorted well-formed sets: each ends before the next starts. -/
theorem sorted_disjoint {fnStart fnEnd : Nat} {l : List (ChSet ν)} (hw : Spec.WellFormed fnStart fnEnd l) :
    (sortSets l).Pairwise (fun a b => a.dmxEnd fnEnd < b.start) := by
  have hd : (sortSets l).Pairwise (fun a b => a.dmxEnd fnEnd < b.start ∨ b.dmxEnd fnEnd < a.start) :=
    hw.disjoint.perm (sortSets_perm l).symm (fun h => h.symm)
  have hs := sortSets_sorted l
  have := List.Pairwise.and hd hs
  refine this.imp_of_mem ?_
  intro a b ha hb ⟨h1, h2⟩
  have ia := hw.inside a ((sortSets_perm l).mem_iff.1 ha)
  have ib := hw.inside b ((sortSets_perm l).mem_iff.1 hb)
  omega

theorem noFeature_range (unnamed : ν) (fnEnd a b : Nat) (hb : b < 18446744073709551615) :
    rangeOf fnEnd (noFeature unnamed a b) = (a, b) := by
  rw [rangeOf, noFeature, ChSet.dmxEnd, if_neg]
  simp only [unset]
  omega

/-- The sets with the gaps between them tile the range from the first start to the last end. -/
theorem fillGaps_tiles (unnamed : ν) (fnEnd : Nat) (h64 : fnEnd < 18446744073709551615) : ∀ (rest : List (ChSet ν)) (first : ChSet ν),
    (first :: rest).Pairwise (fun a b => a.dmxEnd fnEnd < b.start) →
    (∀ s ∈ first :: rest, s.start ≤ s.dmxEnd fnEnd ∧ s.dmxEnd fnEnd ≤ fnEnd) →
    Tiles first.start (((first :: rest).getLast (by simp)).dmxEnd fnEnd)
      ((first :: fillGaps unnamed fnEnd first rest).map (rangeOf fnEnd)) := by
  intro rest
  induction rest with
  | nil =>
    intro first _ hin
    have := hin first (by simp)
    exact ⟨rfl, this.1, Nat.le_refl _, rfl⟩
  | cons b r ih =>
    intro first hp hin
    have hfb := (List.pairwise_cons.1 hp).1 b (by simp)
    have hf := hin first (by simp)
    have hbin := hin b (by simp)
    have := ih b (List.pairwise_cons.1 hp).2 (fun s hs => hin s (by simp at hs ⊢; exact .inr hs))
    rw [List.getLast_cons (by simp)]
    have hlast : b.start ≤ ((b :: r).getLast (by simp)).dmxEnd fnEnd := by
      have hm := List.getLast_mem (l := b :: r) (by simp)
      rcases List.mem_cons.1 hm with h | h
      · rw [h]; exact hbin.1
      · have h1 := (List.pairwise_cons.1 (List.pairwise_cons.1 hp).2).1 _ h
        have h2 := hin _ (List.mem_cons_of_mem _ hm)
        omega
    have hdiff : (b.start + 18446744073709551616 - first.dmxEnd fnEnd) % 18446744073709551616 = b.start - first.dmxEnd fnEnd := by
      omega
    rw [fillGaps, hdiff]
    by_cases hg : 1 < b.start - first.dmxEnd fnEnd
    · rw [if_pos hg, List.map_cons, List.map_cons]
      rw [show (first.dmxEnd fnEnd + 1) % 18446744073709551616 = first.dmxEnd fnEnd + 1 by omega,
        show (b.start + 18446744073709551615) % 18446744073709551616 = b.start - 1 by omega,
        noFeature_range unnamed fnEnd _ _ (by omega)]
      refine ⟨rfl, hf.1, ?_, rfl, ?_, ?_, ?_⟩
      · show first.dmxEnd fnEnd ≤ _; omega
      · show first.dmxEnd fnEnd + 1 ≤ b.start - 1; omega
      · show b.start - 1 ≤ _; omega
      · rw [show (first.dmxEnd fnEnd + 1, b.start - 1).2 + 1 = b.start by simp only; omega]
        exact this
    · rw [if_neg hg, List.map_cons]
      refine ⟨rfl, hf.1, ?_, ?_⟩
      · show first.dmxEnd fnEnd ≤ _; omega
      · rw [show (rangeOf fnEnd first).2 + 1 = b.start by show first.dmxEnd fnEnd + 1 = _; omega]
        exact this

theorem inside_sorted {fnStart fnEnd : Nat} {l : List (ChSet ν)} (hw : Spec.WellFormed fnStart fnEnd l) :
    ∀ s ∈ sortSets l, fnStart ≤ s.start ∧ s.start ≤ s.dmxEnd fnEnd ∧ s.dmxEnd fnEnd ≤ fnEnd :=
  fun s hs => hw.inside s ((sortSets_perm l).mem_iff.1 hs)

theorem sortSets_ne {l : List (ChSet ν)} (h : l ≠ []) : sortSets l ≠ [] := by
  intro he
  have := (sortSets_perm l).length_eq
  rw [he] at this
  cases l with
  | nil => exact h rfl
  | cons a t => simp at this

/-- C26: the sets written cover the range of the function exactly once. (Real and virtual resolutions go up to
32 bit, so `fnEnd` is far below the limit.) -/
theorem C26_covers (unnamed : ν) (fnStart fnEnd : Nat) (sets : List (ChSet ν)) (h64 : fnEnd < 18446744073709551615)
    (hw : Spec.WellFormed fnStart fnEnd sets) (hne : sets ≠ []) :
    Tiles fnStart fnEnd ((writeSets unnamed fnStart fnEnd sets).map (fun s => (s.start, s.dmxEnd fnEnd))) := by
  have hp := sorted_disjoint hw
  have hin := inside_sorted hw
  have hn := sortSets_ne hne
  rw [writeSets]
  generalize sortSets sets = l at hp hin hn ⊢
  cases l with
  | nil => exact absurd rfl hn
  | cons first rest =>
    simp only
    have ht := fillGaps_tiles unnamed fnEnd h64 rest first hp (fun s hs => (hin s hs).2)
    have hl := hin _ (List.getLast_mem (l := first :: rest) (by simp))
    generalize (first :: rest).getLast (by simp) = last at ht hl ⊢
    have hf := hin first (by simp)
    have hfl : first.start ≤ last.dmxEnd fnEnd := by
      obtain ⟨h1, h2, h3, h4⟩ := ht
      have h2' : first.start ≤ first.dmxEnd fnEnd := h2
      have h3' : first.dmxEnd fnEnd ≤ last.dmxEnd fnEnd := h3
      omega
    rw [List.map_append, List.map_append]
    have h2 : Tiles first.start fnEnd ((first :: fillGaps unnamed fnEnd first rest).map (rangeOf fnEnd) ++
        (if last.dmxEnd fnEnd < fnEnd then
          [noFeature unnamed ((last.dmxEnd fnEnd + 1) % 18446744073709551616) fnEnd] else []).map (rangeOf fnEnd)) := by
      refine tiles_append ht ?_ hl.2.2
      by_cases hlt : last.dmxEnd fnEnd < fnEnd
      · rw [if_pos hlt, show (last.dmxEnd fnEnd + 1) % 18446744073709551616 = last.dmxEnd fnEnd + 1 by omega,
          List.map_cons, noFeature_range unnamed fnEnd _ _ h64]
        refine ⟨rfl, ?_, Nat.le_refl _, rfl⟩
        show last.dmxEnd fnEnd + 1 ≤ fnEnd; omega
      · rw [if_neg hlt]
        show _ + 1 = _ + 1; omega
    rw [List.append_assoc]
    by_cases hlt : fnStart < first.start
    · rw [if_pos hlt, show (first.start + 18446744073709551615) % 18446744073709551616 = first.start - 1 by omega]
      refine tiles_append (m := first.start - 1) ?_ ?_ (by omega)
      · rw [List.map_cons]
        have := noFeature_range unnamed fnEnd fnStart (first.start - 1) (by omega)
        rw [rangeOf] at this
        rw [this]
        refine ⟨rfl, ?_, Nat.le_refl _, rfl⟩
        show fnStart ≤ first.start - 1; omega
      · rw [show first.start - 1 + 1 = first.start by omega]
        exact h2
    · rw [if_neg hlt, show fnStart = first.start by omega]
      exact h2

/-- C26: so every DMX value of the function's range is in exactly one of the sets written. -/
theorem C26_every_value_once (unnamed : ν) (fnStart fnEnd v : Nat) (sets : List (ChSet ν)) (h64 : fnEnd < 18446744073709551615)
    (hw : Spec.WellFormed fnStart fnEnd sets) (hne : sets ≠ []) (h1 : fnStart ≤ v) (h2 : v ≤ fnEnd) :
    containing v ((writeSets unnamed fnStart fnEnd sets).map (fun s => (s.start, s.dmxEnd fnEnd))) = 1 :=
  tiles_once (C26_covers unnamed fnStart fnEnd sets h64 hw hne) h1 h2

theorem fillGaps_sublist (unnamed : ν) (fnEnd : Nat) : ∀ (rest : List (ChSet ν)) (first : ChSet ν),
    rest.Sublist (fillGaps unnamed fnEnd first rest) ∧
      ∀ s ∈ fillGaps unnamed fnEnd first rest, s ∈ rest ∨ s.load = unnamed := by
  intro rest
  induction rest with
  | nil => intro first; simp [fillGaps]
  | cons b r ih =>
    intro first
    obtain ⟨i1, i2⟩ := ih b
    rw [fillGaps]
    split
    · refine ⟨List.Sublist.cons _ (List.Sublist.cons_cons _ i1), ?_⟩
      intro s hs
      rcases List.mem_cons.1 hs with rfl | hs
      · exact .inr rfl
      · rcases List.mem_cons.1 hs with rfl | hs
        · exact .inl (by simp)
        · exact (i2 s hs).imp (fun h => by simp [h]) id
    · refine ⟨List.Sublist.cons_cons _ i1, ?_⟩
      intro s hs
      rcases List.mem_cons.1 hs with rfl | hs
      · exact .inl (by simp)
      · exact (i2 s hs).imp (fun h => by simp [h]) id

/-- C26: the sets of the user are all written, unchanged and in order of their starts; everything else written is
unnamed. This holds for any sets, also overlapping ones. -/
theorem C26_user_sets_kept (unnamed : ν) (fnStart fnEnd : Nat) (sets : List (ChSet ν)) :
    (∃ sorted : List (ChSet ν), sorted.Perm sets ∧ sorted.Pairwise (fun a b => a.start ≤ b.start) ∧
      sorted.Sublist (writeSets unnamed fnStart fnEnd sets)) ∧
    ∀ s ∈ writeSets unnamed fnStart fnEnd sets, s ∈ sets ∨ s.load = unnamed := by
  have hperm := sortSets_perm sets
  have hsort := sortSets_sorted sets
  rw [writeSets]
  generalize sortSets sets = l at hperm hsort ⊢
  cases l with
  | nil => exact ⟨⟨[], hperm, hsort, by simp⟩, by simp⟩
  | cons first rest =>
    obtain ⟨h1, h2⟩ := fillGaps_sublist unnamed fnEnd rest first
    simp only
    refine ⟨⟨_, hperm, hsort, ?_⟩, ?_⟩
    · exact ((List.Sublist.cons_cons first h1).trans (List.sublist_append_right _ _)).trans (List.sublist_append_left _ _)
    · intro s hs
      rcases List.mem_append.1 hs with hs | hs
      · rcases List.mem_append.1 hs with hs | hs
        · split at hs
          · exact .inr (by rw [List.mem_singleton.1 hs]; rfl)
          · simp at hs
        · rcases List.mem_cons.1 hs with rfl | hs
          · exact .inl (hperm.mem_iff.1 (by simp))
          · exact (h2 s hs).imp (fun h => hperm.mem_iff.1 (by simp [h])) id
      · split at hs
        · exact .inr (by rw [List.mem_singleton.1 hs]; rfl)
        · simp at hs

/-- A function without channel sets writes none. -/
theorem C26_no_sets (unnamed : ν) (fnStart fnEnd : Nat) : writeSets unnamed fnStart fnEnd [] = [] := rfl

theorem tiles_inc {fnEnd : Nat} : ∀ {l : List (ChSet ν)} {a b : Nat}, Tiles a b (l.map (rangeOf fnEnd)) →
    Inc l ∧ (∀ s ∈ l, a ≤ s.start ∧ s.start ≤ s.dmxEnd fnEnd ∧ s.dmxEnd fnEnd ≤ b) ∧
      l.Pairwise (fun a b => a.dmxEnd fnEnd < b.start) := by
  intro l
  induction l with
  | nil => intro a b _; exact ⟨List.Pairwise.nil, by simp, List.Pairwise.nil⟩
  | cons s t ih =>
    intro a b h
    obtain ⟨h1, h2, h3, h4⟩ := h
    have h1' : s.start = a := h1
    have h2' : s.start ≤ s.dmxEnd fnEnd := h2
    have h3' : s.dmxEnd fnEnd ≤ b := h3
    have h4' : Tiles (s.dmxEnd fnEnd + 1) b (t.map (rangeOf fnEnd)) := h4
    obtain ⟨i1, i2, i3⟩ := ih h4'
    refine ⟨List.pairwise_cons.2 ⟨?_, i1⟩, ?_, List.pairwise_cons.2 ⟨?_, i3⟩⟩
    · intro x hx; have := (i2 x hx).1; omega
    · intro x hx
      rcases List.mem_cons.1 hx with rfl | hx
      · omega
      · have := i2 x hx; omega
    · intro x hx; have := (i2 x hx).1; omega

theorem fillGaps_tiled (unnamed : ν) (fnEnd : Nat) (h64 : fnEnd < 18446744073709551615) : ∀ (rest : List (ChSet ν)) (first : ChSet ν) (b : Nat),
    b ≤ fnEnd → Tiles first.start b ((first :: rest).map (rangeOf fnEnd)) →
    fillGaps unnamed fnEnd first rest = rest ∧ ((first :: rest).getLast (by simp)).dmxEnd fnEnd = b := by
  intro rest
  induction rest with
  | nil =>
    intro first b hb h
    obtain ⟨h1, h2, h3, h4⟩ := h
    have h4' : first.dmxEnd fnEnd + 1 = b + 1 := h4
    refine ⟨rfl, ?_⟩
    show first.dmxEnd fnEnd = b
    omega
  | cons c r ih =>
    intro first b hb h
    obtain ⟨h1, h2, h3, h4⟩ := h
    have h3' : first.dmxEnd fnEnd ≤ b := h3
    have hc : c.start = first.dmxEnd fnEnd + 1 := h4.1
    have h5 : Tiles c.start b ((c :: r).map (rangeOf fnEnd)) := by rw [hc]; exact h4
    obtain ⟨i1, i2⟩ := ih c b hb h5
    rw [fillGaps, show (c.start + 18446744073709551616 - first.dmxEnd fnEnd) % 18446744073709551616 = 1 by omega]
    rw [if_neg (by omega), i1, List.getLast_cons (by simp)]
    exact ⟨rfl, i2⟩

/-- Sets that already tile the range are written as they are. -/
theorem writeSets_tiled (unnamed : ν) (fnStart fnEnd : Nat) (l : List (ChSet ν)) (h64 : fnEnd < 18446744073709551615)
    (hne : l ≠ []) (h : Tiles fnStart fnEnd (l.map (rangeOf fnEnd))) : writeSets unnamed fnStart fnEnd l = l := by
  have hi := tiles_inc h
  rw [writeSets, sortSets_of_inc l hi.1]
  cases l with
  | nil => exact absurd rfl hne
  | cons first rest =>
    have hf : first.start = fnStart := h.1
    obtain ⟨h1, h2⟩ := fillGaps_tiled unnamed fnEnd h64 rest first fnEnd (Nat.le_refl _) (by rw [hf]; exact h)
    simp only
    rw [h1, h2, if_neg (by omega), if_neg (by omega)]
    simp

/-- C26: writing twice changes nothing. -/
theorem C26_idempotent (unnamed : ν) (fnStart fnEnd : Nat) (sets : List (ChSet ν)) (h64 : fnEnd < 18446744073709551615)
    (hw : Spec.WellFormed fnStart fnEnd sets) :
    writeSets unnamed fnStart fnEnd (writeSets unnamed fnStart fnEnd sets) = writeSets unnamed fnStart fnEnd sets := by
  by_cases hne : sets = []
  · rw [hne]; rfl
  · refine writeSets_tiled unnamed fnStart fnEnd _ h64 ?_ (C26_covers unnamed fnStart fnEnd sets h64 hw hne)
    obtain ⟨⟨sorted, hp, -, hs⟩, -⟩ := C26_user_sets_kept unnamed fnStart fnEnd sets
    intro he
    rw [he, List.sublist_nil] at hs
    rw [hs] at hp
    exact hne (hp.symm.eq_nil)

theorem records_inc (nodes : List (ν × Nat)) : ∀ seen : List Nat, (∀ y ∈ seen, ∀ x ∈ nodes, y < x.2) →
    nodes.Pairwise (fun a b => a.2 < b.2) → records seen nodes = nodes := by
  induction nodes with
  | nil => intro seen _ _; rfl
  | cons x t ih =>
    intro seen h hp
    have hp' := List.pairwise_cons.1 hp
    rw [records, if_pos (fun y hy => h y hy x (by simp)), ih _ ?_ hp'.2]
    intro y hy z hz
    rcases List.mem_cons.1 hy with rfl | hy
    · exact hp'.1 z hz
    · exact h y hy z (by simp [hz])

/-- Two tilings with the same starts are the same. -/
theorem tiles_eq : ∀ {l1 l2 : List (Nat × Nat)} {a b : Nat}, Tiles a b l1 → Tiles a b l2 →
    l1.map Prod.fst = l2.map Prod.fst → l1 = l2 := by
  intro l1
  induction l1 with
  | nil => intro l2 a b _ _ h; simpa using h.symm
  | cons r t ih =>
    intro l2 a b h1 h2 he
    cases l2 with
    | nil => simp at he
    | cons r2 t2 =>
      obtain ⟨a1, a2, a3, a4⟩ := h1
      obtain ⟨b1, b2, b3, b4⟩ := h2
      rw [List.map_cons, List.map_cons, List.cons.injEq] at he
      have hend : r.2 = r2.2 := by
        cases t with
        | nil =>
          have : t2 = [] := by simpa using he.2.symm
          subst this
          have h3 : r.2 + 1 = b + 1 := a4
          have h4 : r2.2 + 1 = b + 1 := b4
          omega
        | cons c d =>
          cases t2 with
          | nil => simp at he
          | cons c2 d2 =>
            have h3 : c.1 = r.2 + 1 := a4.1
            have h4 : c2.1 = r2.2 + 1 := b4.1
            have h5 : c.1 = c2.1 := by have := he.2; simp at this; exact this.1
            omega
      have : r = r2 := Prod.ext he.1 hend
      subst this
      rw [ih a4 b4 he.2]

/-- C26 with C25: reading back what was written for a real channel gives the same names and the same ranges. -/
theorem C26_reread (unnamed : ν) (maxDmx fnStart fnEnd : Nat) (sets : List (ChSet ν)) (h64 : fnEnd < 18446744073709551615)
    (hw : Spec.WellFormed fnStart fnEnd sets) (hne : sets ≠ []) :
    let written := writeSets unnamed fnStart fnEnd sets
    (readSets false maxDmx (written.map (fun s => (s.load, s.start)))).map (fun s => (s.load, s.start, s.dmxEnd fnEnd)) =
      written.map (fun s => (s.load, s.start, s.dmxEnd fnEnd)) := by
  intro written
  have ht : Tiles fnStart fnEnd (written.map (rangeOf fnEnd)) := C26_covers unnamed fnStart fnEnd sets h64 hw hne
  have hi := tiles_inc ht
  have hk := C25_real_kept maxDmx (written.map (fun s => (s.load, s.start)))
  rw [records_inc _ [] (by simp) (List.pairwise_map.2 hi.1)] at hk
  generalize hr : readSets false maxDmx (written.map (fun s => (s.load, s.start))) = back at hk
  have hst := map_start hk
  have hback : ∀ s ∈ back, s.start ≤ fnEnd := by
    intro s hs
    obtain ⟨s', hs', he⟩ := mem_starts hst hs
    have := hi.2.1 s' hs'
    omega
  have hc := C25_contiguous false maxDmx (written.map (fun s => (s.load, s.start))) fnEnd (by omega) (by rw [hr]; exact hback)
  rw [hr] at hc
  have hranges : back.map (rangeOf fnEnd) = written.map (rangeOf fnEnd) := by
    cases hb : back with
    | nil =>
      rw [hb] at hst
      have : written = [] := by simpa using hst.symm
      rw [this]
    | cons s t =>
      have h1 := hc s (by rw [hb]; rfl)
      rw [hb] at h1
      cases hwr : written with
      | nil => rw [hb, hwr] at hst; simp at hst
      | cons s2 t2 =>
        rw [hb, hwr] at hst
        rw [hwr] at ht
        have e1 : s.start = s2.start := by simp at hst; exact hst.1
        have e2 : s2.start = fnStart := ht.1
        rw [e1, e2] at h1
        refine tiles_eq h1 ht ?_
        rw [List.map_map, List.map_map]
        exact hst
  have hpair : ∀ (l1 l2 : List (ChSet ν)), l1.map (fun s => (s.load, s.start)) = l2.map (fun s => (s.load, s.start)) →
      l1.map (rangeOf fnEnd) = l2.map (rangeOf fnEnd) →
      l1.map (fun s => (s.load, s.start, s.dmxEnd fnEnd)) = l2.map (fun s => (s.load, s.start, s.dmxEnd fnEnd)) := by
    intro l1
    induction l1 with
    | nil => intro l2 h _; cases l2 with
      | nil => rfl
      | cons a t => simp at h
    | cons a t ih =>
      intro l2 h g
      cases l2 with
      | nil => simp at h
      | cons b r =>
        simp only [List.map_cons, List.cons.injEq, Prod.mk.injEq, rangeOf] at h g ⊢
        exact ⟨⟨h.1.1, h.1.2, g.1.2⟩, ih r h.2 g.2⟩
  exact hpair back written hk hranges

/-- A function 0 … 255 with two sets in the wrong order and three gaps. -/
example : let a : ChSet String := ⟨"Open", 200, 209, false⟩
    let b : ChSet String := ⟨"Closed", 10, 19, false⟩
    Spec.WellFormed 0 255 [a, b] ∧ (writeSets "" 0 255 [a, b]).map (fun s => (s.load, s.start, s.dmxEnd 255)) =
      [("", 0, 9), ("Closed", 10, 19), ("", 20, 199), ("Open", 200, 209), ("", 210, 255)] := by
  refine ⟨⟨?_, ?_⟩, ?_⟩
  · simp [ChSet.dmxEnd, unset]
  · simp [ChSet.dmxEnd, unset]
  · decide +kernel

/-- C26 does not hold for overlapping sets: whenever a set starts more than one value before the end of the set before
it, an unnamed set is written that ends before it starts. -/
theorem C26_overlap_violated (unnamed : ν) (fnStart fnEnd : Nat) (a b : ChSet ν) (h64 : fnEnd < 18446744073709551615)
    (ha : a.start < b.start) (hover : b.start < a.dmxEnd fnEnd) (hle : a.dmxEnd fnEnd ≤ fnEnd) :
    ∃ s ∈ writeSets unnamed fnStart fnEnd [a, b], s.load = unnamed ∧ s.dmxEnd fnEnd < s.start := by
  have hs : sortSets [a, b] = [a, b] := sortSets_of_inc _ (by simp [ha])
  refine ⟨noFeature unnamed ((a.dmxEnd fnEnd + 1) % 18446744073709551616)
    ((b.start + 18446744073709551615) % 18446744073709551616), ?_, rfl, ?_⟩
  · rw [writeSets, hs]
    simp only
    refine List.mem_append_left _ (List.mem_append_right _ (List.mem_cons_of_mem _ ?_))
    rw [fillGaps]
    rw [if_pos (by omega)]
    exact List.mem_cons_self
  · rw [show (a.dmxEnd fnEnd + 1) % 18446744073709551616 = a.dmxEnd fnEnd + 1 by omega,
      show (b.start + 18446744073709551615) % 18446744073709551616 = b.start - 1 by omega]
    have := noFeature_range unnamed fnEnd (a.dmxEnd fnEnd + 1) (b.start - 1) (by omega)
    have h1 := congrArg Prod.snd this
    have h2 := congrArg Prod.fst this
    simp only [rangeOf] at h1 h2
    rw [h1, h2]; omega

/-- For example the sets 0 … 100 and 50 … 200: an unnamed set 101 … 49 appears between them. -/
example : let a : ChSet String := ⟨"a", 0, 100, false⟩
    let b : ChSet String := ⟨"b", 50, 200, false⟩
    (writeSets "" 0 255 [a, b]).map (fun s => (s.load, s.start, s.dmxEnd 255)) =
      [("a", 0, 100), ("", 101, 49), ("b", 50, 200), ("", 201, 255)] := by decide +kernel

end Verif.Chan
