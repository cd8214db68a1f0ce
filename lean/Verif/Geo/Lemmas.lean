import Verif.Geo.Spec

/-! # Lemmas about the geometry tree -/

namespace Verif.Geo

open Spec

theorem mem_walk (g : Geo) : ∀ st : List Geo, g ∈ walk st ↔ ∃ r ∈ st, InTree r g := by
  intro st
  induction h : sizes st using Nat.strongRecOn generalizing st with
  | ind n ih =>
    cases st with
    | nil => simp [walk]
    | cons a st =>
      have hlt : sizes (a.kids.reverse ++ st) < n := by
        rw [← h, sizes_append, sizes_reverse, sizes, size_eq]; omega
      rw [walk, List.mem_cons, ih _ hlt _ rfl]
      constructor
      · rintro (rfl | ⟨r, hr, ht⟩)
        · exact ⟨g, by simp, .self g⟩
        · rcases List.mem_append.1 hr with hr | hr
          · exact ⟨a, by simp, .kid (List.mem_reverse.1 hr) ht⟩
          · exact ⟨r, by simp [hr], ht⟩
      · rintro ⟨r, hr, ht⟩
        rcases List.mem_cons.1 hr with rfl | hr
        · cases ht with
          | self => exact .inl rfl
          | kid hk hkt => exact .inr ⟨_, List.mem_append_left _ (List.mem_reverse.2 hk), hkt⟩
        · exact .inr ⟨r, List.mem_append_right _ hr, ht⟩

theorem mem_treeOf (o : Option Geo) (g : Geo) : g ∈ treeOf o ↔ ∃ t, o = some t ∧ InTree t g := by
  cases o with
  | none => simp [treeOf]
  | some t => rw [treeOf, mem_walk]; simp

theorem mem_insertSorted (x y : Int) (l : List Int) : y ∈ insertSorted x l ↔ y = x ∨ y ∈ l := by
  induction l with
  | nil => simp [insertSorted]
  | cons z t ih =>
    rw [insertSorted]
    split
    · simp
    · rw [List.mem_cons, ih, List.mem_cons]; grind

theorem mem_sortInts (y : Int) (l : List Int) : y ∈ sortInts l ↔ y ∈ l := by
  induction l with
  | nil => simp [sortInts]
  | cons z t ih => rw [sortInts, mem_insertSorted, ih, List.mem_cons]

theorem insertSorted_lt (x : Int) (l : List Int) (h : l.Pairwise (· < ·)) (hx : x ∉ l) :
    (insertSorted x l).Pairwise (· < ·) := by
  induction l with
  | nil => simp [insertSorted]
  | cons z t ih =>
    have h' := List.pairwise_cons.1 h
    simp only [List.mem_cons, not_or] at hx
    rw [insertSorted]
    split
    · refine List.pairwise_cons.2 ⟨?_, h⟩
      intro y hy
      rcases List.mem_cons.1 hy with rfl | hy
      · assumption
      · have := h'.1 y hy; omega
    · refine List.pairwise_cons.2 ⟨?_, ih h'.2 hx.2⟩
      intro y hy
      rcases (mem_insertSorted x y t).1 hy with rfl | hy
      · omega
      · exact h'.1 y hy

theorem sortInts_lt (l : List Int) (h : l.Nodup) : (sortInts l).Pairwise (· < ·) := by
  induction l with
  | nil => exact List.Pairwise.nil
  | cons z t ih =>
    have h' := List.nodup_cons.1 h
    exact insertSorted_lt z _ (ih h'.2) (fun hz => h'.1 ((mem_sortInts z t).1 hz))

theorem sorted_unique : ∀ {a b : List Int}, a.Pairwise (· < ·) → b.Pairwise (· < ·) → (∀ x, x ∈ a ↔ x ∈ b) → a = b := by
  intro a
  induction a with
  | nil =>
    intro b _ _ h
    cases b with
    | nil => rfl
    | cons y t => exact absurd ((h y).2 (by simp)) (by simp)
  | cons x s ih =>
    intro b ha hb h
    cases b with
    | nil => exact absurd ((h x).1 (by simp)) (by simp)
    | cons y t =>
      have ha' := List.pairwise_cons.1 ha
      have hb' := List.pairwise_cons.1 hb
      have hxy : x = y := by
        rcases List.mem_cons.1 ((h x).1 (by simp)) with h1 | h1
        · exact h1
        · rcases List.mem_cons.1 ((h y).2 (by simp)) with h2 | h2
          · exact h2.symm
          · have := ha'.1 y h2; have := hb'.1 x h1; omega
      subst hxy
      rw [ih ha'.2 hb'.2]
      intro z
      constructor
      · intro hz
        rcases List.mem_cons.1 ((h z).1 (by simp [hz])) with h1 | h1
        · have := ha'.1 z hz; omega
        · exact h1
      · intro hz
        rcases List.mem_cons.1 ((h z).2 (by simp [hz])) with h1 | h1
        · have := hb'.1 z hz; omega
        · exact h1

theorem mem_pushNew (l : List Int) (x y : Int) : y ∈ pushNew l x ↔ y ∈ l ∨ y = x := by
  rw [pushNew]; split
  · rename_i h; constructor
    · exact .inl
    · rintro (h' | rfl)
      · exact h'
      · exact h
  · simp

theorem nodup_pushNew (l : List Int) (x : Int) (h : l.Nodup) : (pushNew l x).Nodup := by
  rw [pushNew]; split
  · exact h
  · rename_i hx
    rw [List.nodup_append]
    refine ⟨h, by simp, ?_⟩
    intro a ha b hb
    rw [List.mem_singleton] at hb
    subst hb
    intro he; subst he; exact hx ha

/-! ### refBreaks -/

theorem fold_chans (g : Geo) (chans : List Chan) : ∀ acc : List Int, acc.Nodup →
    (chans.foldl (fun acc c => if c.geom = some g.id ∧ c.brk ≠ 0 then pushNew acc c.brk else acc) acc).Nodup ∧
    ∀ x, x ∈ chans.foldl (fun acc c => if c.geom = some g.id ∧ c.brk ≠ 0 then pushNew acc c.brk else acc) acc ↔
      x ∈ acc ∨ ∃ c ∈ chans, c.geom = some g.id ∧ c.brk ≠ 0 ∧ c.brk = x := by
  induction chans with
  | nil => intro acc h; simp [h]
  | cons c t ih =>
    intro acc h
    rw [List.foldl_cons]
    by_cases hc : c.geom = some g.id ∧ c.brk ≠ 0
    · rw [if_pos hc]
      obtain ⟨i1, i2⟩ := ih _ (nodup_pushNew acc c.brk h)
      refine ⟨i1, fun x => ?_⟩
      rw [i2, mem_pushNew]
      constructor
      · rintro ((h1 | h1) | ⟨c', h1, h2⟩)
        · exact .inl h1
        · exact .inr ⟨c, by simp, hc.1, hc.2, h1.symm⟩
        · exact .inr ⟨c', by simp [h1], h2⟩
      · rintro (h1 | ⟨c', h1, h2⟩)
        · exact .inl (.inl h1)
        · rcases List.mem_cons.1 h1 with rfl | h1
          · exact .inl (.inr h2.2.2.symm)
          · exact .inr ⟨c', h1, h2⟩
    · rw [if_neg hc]
      obtain ⟨i1, i2⟩ := ih _ h
      refine ⟨i1, fun x => ?_⟩
      rw [i2]
      constructor
      · rintro (h1 | ⟨c', h1, h2⟩)
        · exact .inl h1
        · exact .inr ⟨c', by simp [h1], h2⟩
      · rintro (h1 | ⟨c', h1, h2⟩)
        · exact .inl h1
        · rcases List.mem_cons.1 h1 with rfl | h1
          · exact absurd ⟨h2.1, h2.2.1⟩ hc
          · exact .inr ⟨c', h1, h2⟩

theorem fold_tree (chans : List Chan) (tree : List Geo) : ∀ acc : List Int, acc.Nodup →
    (tree.foldl (fun acc g => chans.foldl (fun acc c => if c.geom = some g.id ∧ c.brk ≠ 0 then pushNew acc c.brk else acc) acc) acc).Nodup ∧
    ∀ x, x ∈ tree.foldl (fun acc g => chans.foldl (fun acc c => if c.geom = some g.id ∧ c.brk ≠ 0 then pushNew acc c.brk else acc) acc) acc ↔
      x ∈ acc ∨ ∃ g ∈ tree, ∃ c ∈ chans, c.geom = some g.id ∧ c.brk ≠ 0 ∧ c.brk = x := by
  induction tree with
  | nil => intro acc h; simp [h]
  | cons g t ih =>
    intro acc h
    rw [List.foldl_cons]
    obtain ⟨j1, j2⟩ := fold_chans g chans acc h
    obtain ⟨i1, i2⟩ := ih _ j1
    refine ⟨i1, fun x => ?_⟩
    rw [i2, j2]
    constructor
    · rintro ((h1 | h1) | ⟨g', h1, h2⟩)
      · exact .inl h1
      · exact .inr ⟨g, by simp, h1⟩
      · exact .inr ⟨g', by simp [h1], h2⟩
    · rintro (h1 | ⟨g', h1, h2⟩)
      · exact .inl (.inl h1)
      · rcases List.mem_cons.1 h1 with rfl | h1
        · exact .inl (.inr h2)
        · exact .inr ⟨g', h1, h2⟩

theorem refBreaks_lt (chans : List Chan) (tree : List Geo) : (refBreaks chans tree).Pairwise (· < ·) :=
  sortInts_lt _ (fold_tree chans tree [] List.nodup_nil).1

theorem mem_refBreaks (chans : List Chan) (t : Geo) (x : Int) :
    x ∈ refBreaks chans (treeOf (some t)) ↔ UsedInTree t chans x := by
  rw [refBreaks, mem_sortInts, (fold_tree chans _ [] List.nodup_nil).2]
  constructor
  · rintro (h | ⟨g, hg, c, hc, h1, h2, h3⟩)
    · simp at h
    · obtain ⟨t', ht, hin⟩ := (mem_treeOf _ g).1 hg
      obtain rfl := Option.some.inj ht
      exact ⟨by rw [← h3]; exact h2, g, c, hin, hc, h1, h3⟩
  · rintro ⟨h0, g, c, hin, hc, h1, h2⟩
    exact .inr ⟨g, (mem_treeOf _ g).2 ⟨t, rfl, hin⟩, c, hc, h1, by rw [h2]; exact h0, h2⟩

theorem hasOverwrite_iff (chans : List Chan) (t : Geo) :
    hasOverwrite chans (treeOf (some t)) = true ↔ ∃ g c, InTree t g ∧ c ∈ chans ∧ c.geom = some g.id ∧ c.brk = 0 := by
  rw [hasOverwrite, List.any_eq_true]
  constructor
  · rintro ⟨g, hg, h⟩
    obtain ⟨t', ht, hin⟩ := (mem_treeOf _ g).1 hg
    obtain rfl := Option.some.inj ht
    rw [List.any_eq_true] at h
    obtain ⟨c, hc, h⟩ := h
    exact ⟨g, c, hin, hc, of_decide_eq_true h⟩
  · rintro ⟨g, c, hin, hc, h⟩
    exact ⟨g, (mem_treeOf _ g).2 ⟨t, rfl, hin⟩, List.any_eq_true.2 ⟨c, hc, decide_eq_true h⟩⟩

/-! ### Addresses of a channel -/

theorem addresses_bytes (c : Chan) (offset : Nat) (hc : c.coarse ≠ 0) :
    c.addresses offset = (bytes c).map (fun x => (x + offset) % 65536) := by
  unfold Chan.addresses Chan.resolution bytes
  rw [if_neg hc]
  by_cases h1 : c.fine = 0
  · simp [h1, hc]
  · by_cases h2 : c.ultra = 0
    · simp [h1, h2, hc]
    · by_cases h3 : c.uber = 0
      · simp [h1, h2, h3, hc]
      · simp [h1, h2, h3, hc]

theorem bytes_virtual (c : Chan) (h : c.isVirtual = true) : bytes c = [] := by
  have := of_decide_eq_true h
  rw [bytes, this.1]; rfl

/-- A channel either is virtual or has a coarse address. -/
def Chan.Sound (c : Chan) : Prop := c.isVirtual = true ∨ c.coarse ≠ 0

theorem mem_geoAddresses {chans : List Chan} (hs : ∀ c ∈ chans, c.Sound) (b : Int) (offset : Nat) (g : Geo) (a : Nat) :
    a ∈ geoAddresses chans b offset g ↔
      ∃ c ∈ chans, c.geom = some g.id ∧ c.brk = b ∧ ∃ x ∈ bytes c, a = (x + offset) % 65536 := by
  rw [geoAddresses, List.mem_flatMap]
  constructor
  · rintro ⟨c, hc, h⟩
    split at h
    · rename_i hcond
      rcases hs c hc with hv | hv
      · rw [hcond.2.2] at hv; simp at hv
      · rw [addresses_bytes c offset hv] at h
        obtain ⟨x, hx, he⟩ := List.mem_map.1 h
        exact ⟨c, hc, hcond.1, hcond.2.1, x, hx, he.symm⟩
    · simp at h
  · rintro ⟨c, hc, h1, h2, x, hx, he⟩
    refine ⟨c, hc, ?_⟩
    have hv : c.isVirtual = false := by
      cases hv : c.isVirtual with
      | false => rfl
      | true => rw [bytes_virtual c hv] at hx; simp at hx
    rw [if_pos ⟨h1, h2, hv⟩]
    rcases hs c hc with hv' | hv'
    · rw [hv] at hv'; simp at hv'
    · rw [addresses_bytes c offset hv']
      exact List.mem_map.2 ⟨x, hx, he.symm⟩

/-! ### Smallest and largest -/

theorem foldl_max (l : List Nat) : ∀ m, let r := l.foldl (fun m a => if m < a then a else m) m
    m ≤ r ∧ (∀ a ∈ l, a ≤ r) ∧ (r = m ∨ r ∈ l) := by
  induction l with
  | nil => intro m; simp
  | cons x t ih =>
    intro m
    simp only [List.foldl_cons]
    by_cases hlt : m < x
    · rw [if_pos hlt]
      obtain ⟨h1, h2, h3⟩ := ih x
      refine ⟨by omega, ?_, ?_⟩
      · intro a ha
        rcases List.mem_cons.1 ha with rfl | ha
        · omega
        · exact h2 a ha
      · rcases h3 with h3 | h3
        · exact .inr (by rw [h3]; simp)
        · exact .inr (List.mem_cons_of_mem _ h3)
    · rw [if_neg hlt]
      obtain ⟨h1, h2, h3⟩ := ih m
      refine ⟨by omega, ?_, ?_⟩
      · intro a ha
        rcases List.mem_cons.1 ha with rfl | ha
        · omega
        · exact h2 a ha
      · exact h3.imp id (List.mem_cons_of_mem _)

theorem foldl_min (l : List Nat) : ∀ m, let r := l.foldl (fun m a => if a < m then a else m) m
    r ≤ m ∧ (∀ a ∈ l, r ≤ a) ∧ (r = m ∨ r ∈ l) := by
  induction l with
  | nil => intro m; simp
  | cons x t ih =>
    intro m
    simp only [List.foldl_cons]
    by_cases hlt : x < m
    · rw [if_pos hlt]
      obtain ⟨h1, h2, h3⟩ := ih x
      refine ⟨by omega, ?_, ?_⟩
      · intro a ha
        rcases List.mem_cons.1 ha with rfl | ha
        · omega
        · exact h2 a ha
      · rcases h3 with h3 | h3
        · exact .inr (by rw [h3]; simp)
        · exact .inr (List.mem_cons_of_mem _ h3)
    · rw [if_neg hlt]
      obtain ⟨h1, h2, h3⟩ := ih m
      refine ⟨by omega, ?_, ?_⟩
      · intro a ha
        rcases List.mem_cons.1 ha with rfl | ha
        · omega
        · exact h2 a ha
      · exact h3.imp id (List.mem_cons_of_mem _)

/-- With at least one address and all of them in 1 … 512 the block computed is the smallest one. -/
theorem blockSize_spec (P : Nat → Prop) (l : List Nat) (hP : ∀ a, P a ↔ a ∈ l) (hne : ∃ a, P a)
    (hr : ∀ a, P a → 1 ≤ a ∧ a ≤ 512) : SmallestBlock P (blockSize l) := by
  obtain ⟨a0, ha0⟩ := hne
  have hM := foldl_max l 0
  have hm := foldl_min l 512
  rw [blockSize]
  generalize l.foldl (fun m a => if m < a then a else m) 0 = M at hM ⊢
  generalize l.foldl (fun m a => if a < m then a else m) 512 = m at hm ⊢
  simp only at hM hm ⊢
  obtain ⟨hM1, hM2, hM3⟩ := hM
  obtain ⟨hm1, hm2, hm3⟩ := hm
  have g1 := hM2 a0 ((hP a0).1 ha0)
  have g2 := hm2 a0 ((hP a0).1 ha0)
  have g3 := hr a0 ha0
  have hMl : M ∈ l := by
    rcases hM3 with h | h
    · omega
    · exact h
  have hml : m ∈ l := by
    rcases hm3 with h | h
    · have : a0 = m := by omega
      rw [← this]; exact (hP a0).1 ha0
    · exact h
  have rM := hr M ((hP M).2 hMl)
  have rm := hr m ((hP m).2 hml)
  have e : (M + 65536 - m + 1) % 65536 = M - m + 1 := by omega
  rw [e]
  refine ⟨m, by omega, (hP m).2 hml, ?_, ?_⟩
  · rw [show m + (M - m + 1) - 1 = M by omega]; exact (hP M).2 hMl
  · intro a ha
    have := hM2 a ((hP a).1 ha)
    have := hm2 a ((hP a).1 ha)
    omega

end Verif.Geo
