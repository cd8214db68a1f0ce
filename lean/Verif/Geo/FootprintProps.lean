import Verif.Geo.BreakProps

/-!
# The footprint of a DMX mode (C28)
-/

namespace Verif.Geo

open Spec

/-- In a list of breaks that begins with the used ones in ascending order, the position among the used ones is the position
of the break. -/
theorem break_at (breaks : List Brk) : ∀ (used rest : List Int) (b : Int), breaks.map (·.brk) = used ++ rest → b ∈ used →
    ∃ br, breaks[used.idxOf b]? = some br ∧ breaks.find? (fun br => decide (br.brk = b)) = some br := by
  induction breaks with
  | nil =>
    intro used rest b h hb
    cases used with
    | nil => simp at hb
    | cons x t => simp at h
  | cons a l ih =>
    intro used rest b h hb
    cases used with
    | nil => simp at hb
    | cons x t =>
      rw [List.map_cons, List.cons_append, List.cons.injEq] at h
      by_cases hx : x = b
      · refine ⟨a, ?_, ?_⟩
        · rw [List.idxOf_cons, hx]; simp
        · rw [List.find?_cons, decide_eq_true (by rw [h.1, hx])]
      · have hbt : b ∈ t := by
          rcases List.mem_cons.1 hb with h' | h'
          · exact absurd h'.symm hx
          · exact h'
        obtain ⟨br, h1, h2⟩ := ih t rest b h.2 hbt
        refine ⟨br, ?_, ?_⟩
        · rw [List.idxOf_cons, show (x == b) = false by simpa using hx]; simpa using h1
        · rw [List.find?_cons, decide_eq_false (by rw [h.1]; exact hx)]; exact h2

/-- The addresses a reference contributes, before the 16 bit limit. -/
def Via (t : Geo) (chans : List Chan) (b : Int) (r : Ref) (a : Nat) : Prop :=
  ∃ g' c x br, InTree t g' ∧ c ∈ chans ∧ c.geom = some g'.id ∧ x ∈ bytes c ∧ a = x + (br.address - 1) ∧
    (c.brk = b ∧ b ≠ 0 ∧ r.breaks.find? (fun br => decide (br.brk = b)) = some br ∨
     c.brk = 0 ∧ r.breaks.getLast? = some br ∧ br.brk = b)

theorem offset_eq (n : Nat) (h1 : 1 ≤ n) (h2 : n < 65536) : (n + 65535) % 65536 = n - 1 := by omega

theorem refAddresses_spec {heap : Nat → Option Geo} {chans : List Chan} (hs : ∀ c ∈ chans, c.Sound) {b : Int} (hb : b ≠ 0)
    {r : Ref} {t : Geo} (ht : r.linked.bind heap = some t) (ho : Ordered t chans r) (h16 : ∀ br ∈ r.breaks, br.address < 65536) :
    ∃ l, refAddresses heap chans b r = .ok l ∧ ∀ a, a ∈ l ↔ ∃ a', Via t chans b r a' ∧ a = a' % 65536 := by
  have hmem : ∀ (b' : Int) (off a : Nat), a ∈ (treeOf (some t)).flatMap (geoAddresses chans b' off) ↔
      ∃ g c, InTree t g ∧ c ∈ chans ∧ c.geom = some g.id ∧ c.brk = b' ∧ ∃ x ∈ bytes c, a = (x + off) % 65536 := by
    intro b' off a
    rw [List.mem_flatMap]
    constructor
    · rintro ⟨g, hg, h⟩
      obtain ⟨t', e, hin⟩ := (mem_treeOf _ g).1 hg
      obtain rfl := Option.some.inj e
      obtain ⟨c, hc, h1, h2, h3⟩ := (mem_geoAddresses hs b' off g a).1 h
      exact ⟨g, c, hin, hc, h1, h2, h3⟩
    · rintro ⟨g, c, hin, hc, h1, h2, h3⟩
      exact ⟨g, (mem_treeOf _ g).2 ⟨t, rfl, hin⟩, (mem_geoAddresses hs b' off g a).2 ⟨c, hc, h1, h2, h3⟩⟩
  obtain ⟨used, rest, ho1, ho2, ho3⟩ := ho.order
  have hused : refBreaks chans (treeOf (some t)) = used :=
    sorted_unique (refBreaks_lt _ _) ho2 (fun x => by rw [mem_refBreaks, ho3])
  -- the part with the channel's own break
  obtain ⟨direct, hd, hdm⟩ : ∃ direct, directAddresses chans b r (treeOf (some t)) = (Except.ok direct : Except Unit (List Nat)) ∧ ∀ a, a ∈ direct ↔ ∃ g' c x br, InTree t g' ∧ c ∈ chans ∧ c.geom = some g'.id ∧ x ∈ bytes c ∧
        a = (x + (br.address - 1)) % 65536 ∧ c.brk = b ∧ r.breaks.find? (fun br => decide (br.brk = b)) = some br := by
    rw [directAddresses, hused]
    by_cases hbu : b ∈ used
    · obtain ⟨br, h1, h2⟩ := break_at r.breaks used rest b ho1 hbu
      rw [if_pos hbu, h1]
      refine ⟨_, rfl, fun a => ?_⟩
      have hbr := List.mem_of_find?_eq_some h2
      rw [hmem, offset_eq _ (ho.positive br hbr) (h16 br hbr)]
      constructor
      · rintro ⟨g, c, g1, g2, g3, g4, x, g5, g6⟩
        exact ⟨g, c, x, br, g1, g2, g3, g5, g6, g4, h2⟩
      · rintro ⟨g, c, x, br', g1, g2, g3, g5, g6, g4, g7⟩
        rw [h2] at g7
        obtain rfl := Option.some.inj g7
        exact ⟨g, c, g1, g2, g3, g4, x, g5, g6⟩
    · rw [if_neg hbu]
      refine ⟨[], rfl, fun a => ?_⟩
      constructor
      · intro h; simp at h
      · rintro ⟨g, c, x, br', g1, g2, g3, g5, g6, g4, g7⟩
        exact absurd ((ho3 b).2 ⟨hb, g, c, g1, g2, g3, g4⟩) hbu
  rw [refAddresses, ht]
  rw [hd]
  simp only
  have hdv : ∀ a, (∃ g' c x br, InTree t g' ∧ c ∈ chans ∧ c.geom = some g'.id ∧ x ∈ bytes c ∧
        a = (x + (br.address - 1)) % 65536 ∧ c.brk = b ∧ r.breaks.find? (fun br => decide (br.brk = b)) = some br) →
      ∃ a', Via t chans b r a' ∧ a = a' % 65536 := by
    rintro a ⟨g, c, x, br, g1, g2, g3, g4, g5, g6, g7⟩
    exact ⟨_, ⟨g, c, x, br, g1, g2, g3, g4, rfl, .inl ⟨g6, hb, g7⟩⟩, g5⟩
  by_cases hov : hasOverwrite chans (treeOf (some t)) = true
  · rw [if_pos hov]
    have hne := ho.last ((hasOverwrite_iff chans t).1 hov)
    cases hlast : r.breaks.getLast? with
    | none => exact absurd (List.getLast?_eq_none_iff.1 hlast) hne
    | some br =>
      simp only
      have hbr := List.mem_of_getLast? hlast
      by_cases hbb : br.brk = b
      · rw [if_pos hbb]
        refine ⟨_, rfl, fun a => ?_⟩
        rw [List.mem_append, hdm, hmem, offset_eq _ (ho.positive br hbr) (h16 br hbr)]
        constructor
        · rintro (h | ⟨g, c, g1, g2, g3, g4, x, g5, g6⟩)
          · exact hdv a h
          · exact ⟨_, ⟨g, c, x, br, g1, g2, g3, g5, rfl, .inr ⟨g4, hlast, hbb⟩⟩, g6⟩
        · rintro ⟨a', ⟨g, c, x, br', g1, g2, g3, g4, g5, g6 | g6⟩, g7⟩
          · exact .inl ⟨g, c, x, br', g1, g2, g3, g4, by rw [g7, g5], g6.1, g6.2.2⟩
          · rw [hlast] at g6
            obtain rfl := Option.some.inj g6.2.1
            exact .inr ⟨g, c, g1, g2, g3, g6.1, x, g4, by rw [g7, g5]⟩
      · rw [if_neg hbb]
        refine ⟨_, rfl, fun a => ?_⟩
        rw [hdm]
        constructor
        · exact hdv a
        · rintro ⟨a', ⟨g, c, x, br', g1, g2, g3, g4, g5, g6 | g6⟩, g7⟩
          · exact ⟨g, c, x, br', g1, g2, g3, g4, by rw [g7, g5], g6.1, g6.2.2⟩
          · rw [hlast] at g6
            obtain rfl := Option.some.inj g6.2.1
            exact absurd g6.2.2 hbb
  · rw [if_neg hov]
    refine ⟨_, rfl, fun a => ?_⟩
    rw [hdm]
    constructor
    · exact hdv a
    · rintro ⟨a', ⟨g, c, x, br', g1, g2, g3, g4, g5, g6 | g6⟩, g7⟩
      · exact ⟨g, c, x, br', g1, g2, g3, g4, by rw [g7, g5], g6.1, g6.2.2⟩
      · exact absurd ((hasOverwrite_iff chans t).2 ⟨g, c, g1, g2, g3, g6.1⟩) hov

theorem refAddresses_null {heap : Nat → Option Geo} {chans : List Chan} {b : Int} {r : Ref} (ht : r.linked.bind heap = none) :
    refAddresses heap chans b r = .ok [] := by
  rw [refAddresses, ht]; rfl

theorem allAddresses_spec {heap : Nat → Option Geo} {chans : List Chan} {b : Int} (V : Geo → Nat → Prop) : ∀ (tree : List Geo),
    (∀ g ∈ tree, ∃ l, linkedAddresses heap chans b g.ref = .ok l ∧ ∀ a, a ∈ l ↔ V g a) →
    ∃ l, allAddresses heap chans b tree = .ok l ∧ ∀ a, a ∈ l ↔ ∃ g ∈ tree, a ∈ geoAddresses chans b 0 g ∨ V g a := by
  intro tree
  induction tree with
  | nil => intro _; exact ⟨[], rfl, by simp⟩
  | cons g t ih =>
    intro h
    obtain ⟨l, h1, h2⟩ := h g (by simp)
    obtain ⟨l', h3, h4⟩ := ih (fun g' hg => h g' (by simp [hg]))
    refine ⟨geoAddresses chans b 0 g ++ l ++ l', by rw [allAddresses, h1, h3], fun a => ?_⟩
    rw [List.mem_append, List.mem_append, h2, h4]
    constructor
    · rintro (h5 | ⟨g', h5, h6⟩)
      · exact ⟨g, by simp, h5⟩
      · exact ⟨g', by simp [h5], h6⟩
    · rintro ⟨g', h5, h6⟩
      rcases List.mem_cons.1 h5 with rfl | h5
      · exact .inl h6
      · exact .inr ⟨g', h5, h6⟩

theorem Spec.InTree.trans {a b c : Geo} (h1 : InTree a b) (h2 : InTree b c) : InTree a c := by
  induction h1 with
  | self => exact h2
  | kid hk _ ih => exact .kid hk (ih h2)

theorem reaches_flat {heap : Nat → Option Geo} {t g : Geo} (hr : Reaches heap t g) : (∀ g', InTree t g' → g'.ref = none) → InTree t g := by
  induction hr with
  | self => intro _; exact .self _
  | kid hk _ ih => intro h; exact .kid hk (ih (fun g' hg' => h g' (.kid hk hg')))
  | link h1 h2 h3 _ _ =>
    intro h
    rw [h _ (.self _)] at h1
    simp at h1

/-- Referenced geometries contain no references themselves. -/
def Spec.NotNested (heap : Nat → Option Geo) (root : Geo) : Prop :=
  ∀ g r i t, InTree root g → g.ref = some r → r.linked = some i → heap i = some t → ∀ g', InTree t g' → g'.ref = none

theorem reaches_notNested {heap : Nat → Option Geo} {root0 root g : Geo} (hn : Spec.NotNested heap root0)
    (hr : Reaches heap root g) : InTree root0 root → InTree root0 g ∨ g.ref = none := by
  induction hr with
  | self => exact .inl
  | kid hk _ ih => intro h; exact ih (h.trans (.kid hk (.self _)))
  | link h1 h2 h3 h4 _ =>
    intro h
    have hflat := hn _ _ _ _ h h1 h2 h3
    exact .inr (hflat _ (reaches_flat h4 hflat))

/-- C28 (`_partial`): for a break that is listed, when references are not nested, list their breaks in ascending order and
the addresses used lie in 1 … 512, the footprint is the size of the smallest address block containing every address any
channel (also through geometry references) uses in the break. What is missing is shown by the theorems ending in
`_violated` below. -/
theorem C28_footprint_partial {heap : Nat → Option Geo} {fuel : Nat} {root : Geo} {chans : List Chan} {breaks : List Int} {b : Nat}
    (hbreaks : breakArray heap fuel (some root) chans = some (.ok breaks)) (hb0 : b ≠ 0) (hb : (b : Int) ∈ breaks)
    (hs : ∀ c ∈ chans, c.Sound) (hn : Spec.NotNested heap root)
    (ho : ∀ g r i t, InTree root g → g.ref = some r → r.linked = some i → heap i = some t → Ordered t chans r)
    (h16 : ∀ g r, InTree root g → g.ref = some r → ∀ br ∈ r.breaks, br.address < 65536)
    (hne : ∃ a, Uses heap root chans b a) (hr : ∀ a, Uses heap root chans b a → 1 ≤ a ∧ a ≤ 512) :
    ∃ n, footprint heap fuel (some root) chans b = some (.ok n) ∧ SmallestBlock (Uses heap root chans b) n := by
  have hb0' : (b : Int) ≠ 0 := by omega
  obtain ⟨l, hl, hm⟩ := allAddresses_spec (heap := heap) (chans := chans) (b := (b : Int))
    (fun g a => ∃ r i t, g.ref = some r ∧ r.linked = some i ∧ heap i = some t ∧ ∃ a', Via t chans b r a' ∧ a = a' % 65536)
    (treeOf (some root)) (by
      intro g hg
      obtain ⟨t', e, hin⟩ := (mem_treeOf _ g).1 hg
      obtain rfl := Option.some.inj e
      cases href : g.ref with
      | none => exact ⟨[], rfl, by simp⟩
      | some r =>
        cases ht : r.linked.bind heap with
        | none =>
          refine ⟨[], refAddresses_null ht, fun a => ⟨by simp, ?_⟩⟩
          rintro ⟨r', i, t, h1, h2, h3, -⟩
          obtain rfl := Option.some.inj h1
          rw [h2, Option.bind_some, h3] at ht
          simp at ht
        | some t =>
          cases hli : r.linked with
          | none => rw [hli] at ht; simp at ht
          | some i =>
            have ht' : heap i = some t := by rw [hli, Option.bind_some] at ht; exact ht
            obtain ⟨l, h1, h2⟩ := refAddresses_spec hs hb0' ht (ho g r i t hin href hli ht') (h16 g r hin href)
            refine ⟨l, h1, fun a => ?_⟩
            rw [h2]
            constructor
            · intro h; exact ⟨r, i, t, rfl, hli, ht', h⟩
            · rintro ⟨r', i', t', g1, g2, g3, g4⟩
              obtain rfl := Option.some.inj g1
              rw [hli] at g2
              obtain rfl := Option.some.inj g2
              rw [ht'] at g3
              obtain rfl := Option.some.inj g3
              exact g4)
  have key : ∀ a, Uses heap root chans b a ↔ a ∈ l := by
    intro a
    rw [hm]
    constructor
    · intro hu
      have hra := hr a hu
      have hmod : a = a % 65536 := by omega
      cases hu with
      | own h1 h2 h3 h4 h5 =>
        refine ⟨_, (mem_treeOf _ _).2 ⟨root, rfl, h1⟩, .inl ?_⟩
        exact (mem_geoAddresses hs _ _ _ _).2 ⟨_, h2, h3, h4, a, h5, hmod⟩
      | placed h1 h2 h3 h4 h5 h6 h7 h8 h9 h10 h11 =>
        rcases reaches_notNested hn h1 (.self _) with hin | hnone
        · exact ⟨_, (mem_treeOf _ _).2 ⟨root, rfl, hin⟩, .inr ⟨_, _, _, h2, h3, h4, _,
            ⟨_, _, _, _, h5, h6, h7, h11, rfl, .inl ⟨h8, h9, h10⟩⟩, hmod⟩⟩
        · rw [hnone] at h2; simp at h2
      | overwritten h1 h2 h3 h4 h5 h6 h7 h8 h9 h10 h11 =>
        rcases reaches_notNested hn h1 (.self _) with hin | hnone
        · exact ⟨_, (mem_treeOf _ _).2 ⟨root, rfl, hin⟩, .inr ⟨_, _, _, h2, h3, h4, _,
            ⟨_, _, _, _, h5, h6, h7, h11, rfl, .inr ⟨h8, h9, h10⟩⟩, hmod⟩⟩
        · rw [hnone] at h2; simp at h2
    · rintro ⟨g, hg, h⟩
      obtain ⟨t', e, hin⟩ := (mem_treeOf _ g).1 hg
      obtain rfl := Option.some.inj e
      have hreach : Reaches heap root g := by
        clear hg h hb hbreaks hne hr ho h16 hn hm hl
        induction hin with
        | self => exact .self _
        | kid hk _ ih => exact .kid hk (ih rfl)
      rcases h with h | ⟨r, i, t, h1, h2, h3, a', ⟨g', c, x, br, g1, g2, g3, g4, rfl, g5 | g5⟩, h4⟩
      · obtain ⟨c, hc, h1, h2, x, h3, h4⟩ := (mem_geoAddresses hs _ _ _ _).1 h
        have hu : Uses heap root chans b x := .own hin hc h1 h2 h3
        have := hr x hu
        rw [show a = x by omega]; exact hu
      · have hu : Uses heap root chans b _ := .placed hreach h1 h2 h3 g1 g2 g3 g5.1 g5.2.1 g5.2.2 g4
        have := hr _ hu
        rw [h4, Nat.mod_eq_of_lt (by omega)]; exact hu
      · have hu : Uses heap root chans b _ := .overwritten hreach h1 h2 h3 g1 g2 g3 g5.1 g5.2.1 g5.2.2 g4
        have := hr _ hu
        rw [h4, Nat.mod_eq_of_lt (by omega)]; exact hu
  refine ⟨blockSize l, ?_, blockSize_spec _ l key hne hr⟩
  rw [footprint, hbreaks]
  simp only
  rw [if_neg (by simpa using hb), hl]

/-- C28: a break that is not listed has footprint 0; in particular a break no channel uses. -/
theorem C28_unlisted {heap : Nat → Option Geo} {fuel : Nat} {root : Option Geo} {chans : List Chan} {breaks : List Int} {b : Nat}
    (hbreaks : breakArray heap fuel root chans = some (.ok breaks)) (hb : (b : Int) ∉ breaks) :
    footprint heap fuel root chans b = some (.ok 0) := by
  rw [footprint, hbreaks]
  simp only
  rw [if_pos hb]

theorem C28_unused {heap : Nat → Option Geo} {fuel : Nat} {root : Geo} {chans : List Chan} {breaks : List Int} {b : Nat}
    (hbreaks : breakArray heap fuel (some root) chans = some (.ok breaks)) (h1 : ∀ c ∈ chans, c.brk ≠ b)
    (h2 : ∀ g r, Reaches heap root g → g.ref = some r → ∀ br ∈ r.breaks, br.brk ≠ b) :
    footprint heap fuel (some root) chans b = some (.ok 0) := by
  refine C28_unlisted hbreaks ?_
  rw [C29_members_partial hbreaks]
  rintro (⟨c, hc, -, h⟩ | ⟨c, hc, -, g, r, br, g1, g2, -, g3, g4⟩)
  · exact h1 c hc h
  · exact h2 g r g1 g2 br (List.mem_of_getLast? g3) g4

/-! ### A mode meeting the hypotheses -/

/-- Whether the footprint was computed and is `n`. -/
def isOk (x : Option (Except Unit Nat)) (n : Nat) : Bool :=
  match x with
  | some (.ok m) => m == n
  | _ => false

theorem of_isOk {x : Option (Except Unit Nat)} {n : Nat} (h : isOk x n = true) : x = some (.ok n) := by
  cases x with
  | none => simp [isOk] at h
  | some e =>
    cases e with
    | error e => simp [isOk] at h
    | ok m => rw [show m = n by simpa [isOk] using h]

theorem sample_footprint : footprint sampleHeap 20 (some sampleRoot) sampleChans 1 = some (.ok 5) :=
  of_isOk (by decide +kernel)

theorem sampleRoot_tree {g : Geo} (h : InTree sampleRoot g) : g = sampleRoot ∨ g = .node 2 (some (sampleRef 5)) [] ∨
    g = .node 3 (some (sampleRef 8)) [] := by
  cases h with
  | self => exact .inl rfl
  | kid hk h =>
    simp only [sampleRoot, Geo.kids, List.mem_cons, List.not_mem_nil, or_false] at hk
    rcases hk with rfl | rfl
    · cases h with
      | self => exact .inr (.inl rfl)
      | kid hk h => simp [Geo.kids] at hk
    · cases h with
      | self => exact .inr (.inr rfl)
      | kid hk h => simp [Geo.kids] at hk

theorem samplePixel_tree {g : Geo} (h : InTree samplePixel g) : g = samplePixel ∨ g = .node 11 none [] := by
  cases h with
  | self => exact .inl rfl
  | kid hk h =>
    simp only [samplePixel, Geo.kids, List.mem_cons, List.not_mem_nil, or_false] at hk
    subst hk
    cases h with
    | self => exact .inr rfl
    | kid hk h => simp [Geo.kids] at hk

theorem sample_ref {g : Geo} {r : Ref} (h : InTree sampleRoot g) (hr : g.ref = some r) : r = sampleRef 5 ∨ r = sampleRef 8 := by
  rcases sampleRoot_tree h with rfl | rfl | rfl
  · simp [sampleRoot, Geo.ref] at hr
  · exact .inl (by simpa [Geo.ref] using hr.symm)
  · exact .inr (by simpa [Geo.ref] using hr.symm)

theorem sample_linked {r : Ref} {i : Nat} {t : Geo} (h : r = sampleRef 5 ∨ r = sampleRef 8) (h1 : r.linked = some i)
    (h2 : sampleHeap i = some t) : t = samplePixel := by
  have : i = 10 := by rcases h with rfl | rfl <;> simpa [sampleRef] using h1.symm
  subst this
  simpa [sampleHeap] using h2.symm

theorem sample_notNested : Spec.NotNested sampleHeap sampleRoot := by
  intro g r i t h1 h2 h3 h4 g' h5
  exact sample_tree h5 (sample_linked (sample_ref h1 h2) h3 h4)

theorem sample_usedInTree (x : Int) : ¬ UsedInTree samplePixel sampleChans x := by
  rintro ⟨h0, g, c, h1, h2, h3, h4⟩
  simp only [sampleChans, List.mem_cons, List.not_mem_nil, or_false] at h2
  rcases h2 with rfl | rfl
  · rcases samplePixel_tree h1 with rfl | rfl <;> simp [samplePixel, Geo.id] at h3
  · exact h0 h4.symm

/-- The pixel placed at 5 and at 8 with two bytes each uses 5, 6, 8 and 9: the block has five addresses. -/
theorem sample_uses {a : Nat} (h : Uses sampleHeap sampleRoot sampleChans 1 a) : 5 ≤ a ∧ a ≤ 9 := by
  cases h with
  | own h1 h2 h3 h4 h5 =>
    simp only [sampleChans, List.mem_cons, List.not_mem_nil, or_false] at h2
    rcases h2 with rfl | rfl <;> simp at h4
  | placed h1 h2 h3 h4 h5 h6 h7 h8 h9 h10 h11 =>
    simp only [sampleChans, List.mem_cons, List.not_mem_nil, or_false] at h6
    rcases h6 with rfl | rfl <;> simp at h8
  | overwritten h1 h2 h3 h4 h5 h6 h7 h8 h9 h10 h11 =>
    rcases reaches_notNested sample_notNested h1 (.self _) with hin | hnone
    · have hr := sample_ref hin h2
      simp only [sampleChans, List.mem_cons, List.not_mem_nil, or_false] at h6
      rcases h6 with rfl | rfl
      · simp at h8
      · simp [bytes] at h11
        rcases hr with rfl | rfl <;> simp [sampleRef] at h9 <;> subst h9 <;> simp only <;> omega
    · rw [hnone] at h2; simp at h2

example : ∃ n, footprint sampleHeap 20 (some sampleRoot) sampleChans 1 = some (.ok n) ∧
    SmallestBlock (Uses sampleHeap sampleRoot sampleChans 1) n := by
  refine C28_footprint_partial (b := 1) sample_breaks (by decide) (by decide) ?_ sample_notNested ?_ ?_ ?_ ?_
  · intro c hc
    simp only [sampleChans, List.mem_cons, List.not_mem_nil, or_false] at hc
    rcases hc with rfl | rfl <;> exact .inr (by decide)
  · intro g r i t h1 h2 h3 h4
    have hr := sample_ref h1 h2
    have := sample_linked hr h3 h4
    subst this
    refine ⟨⟨[], [1], ?_, List.Pairwise.nil, ?_⟩, ?_, ?_⟩
    · rcases hr with rfl | rfl <;> rfl
    · intro x
      exact ⟨by simp, fun h => absurd h (sample_usedInTree x)⟩
    · intro _; rcases hr with rfl | rfl <;> simp [sampleRef]
    · rcases hr with rfl | rfl <;> simp [sampleRef]
  · intro g r h1 h2
    rcases sample_ref h1 h2 with rfl | rfl <;> simp [sampleRef]
  · refine ⟨5, ?_⟩
    have h1 : Reaches sampleHeap sampleRoot (.node 2 (some (sampleRef 5)) []) :=
      .kid (k := .node 2 (some (sampleRef 5)) []) (by simp [sampleRoot, Geo.kids]) (.self _)
    exact Uses.overwritten (x := 1) (i := 10) (br := { brk := 1, address := 5 }) (g' := samplePixel)
      (c := { geom := some 10, brk := 0, coarse := 1, fine := 2, ultra := 0, uber := 0 })
      h1 rfl rfl rfl (.self _) (by simp [sampleChans]) rfl rfl rfl rfl (by simp [bytes])
  · intro a ha
    have := sample_uses ha
    omega

/-! ### Where C28 fails -/

theorem flatMap_nil_of {α β : Type} (l : List α) (f : α → List β) (h : ∀ x ∈ l, f x = []) : l.flatMap f = [] := by
  induction l with
  | nil => rfl
  | cons a t ih => rw [List.flatMap_cons, h a (by simp), ih (fun x hx => h x (by simp [hx])), List.nil_append]

/-- C28 does not hold for a break used by virtual channels only: no address is used, the footprint reported is 65025. -/
theorem C28_virtual_violated (heap : Nat → Option Geo) (fuel i b : Nat) (kids : List Geo) (hk : kids = []) (chans : List Chan)
    (hc : ∀ c ∈ chans, c.isVirtual = true ∧ c.brk ≠ 0) (hb : ∃ c ∈ chans, c.brk = b) (hf : 1 ≤ fuel) :
    footprint heap fuel (some (.node i none kids)) chans b = some (.ok 65025) ∧
      ∀ a, ¬ Uses heap (.node i none kids) chans b a := by
  subst hk
  obtain ⟨f, rfl⟩ : ∃ f, fuel = f + 1 := ⟨fuel - 1, by omega⟩
  have hcr : collectRefs heap (f + 1) ((some (Geo.node i none [])).toList.map some) [] = some [] := by
    cases f <;> rfl
  have hcb : ∀ (cs : List Chan) acc, (∀ c ∈ cs, c.brk ≠ 0) → ∃ l, channelBreaks [] cs acc = .ok l := by
    intro cs
    induction cs with
    | nil => intro acc _; exact ⟨acc, rfl⟩
    | cons c t ih =>
      intro acc h
      rw [channelBreaks, if_neg (h c (by simp))]
      exact ih _ (fun c hc => h c (by simp [hc]))
  obtain ⟨l, hl⟩ := hcb chans [] (fun c h => (hc c h).2)
  have hba : breakArray heap (f + 1) (some (.node i none [])) chans = some (.ok (sortInts l)) := by
    rw [breakArray, hcr]; simp only; rw [hl]
  constructor
  · have hmem : (b : Int) ∈ sortInts l := by
      obtain ⟨c, h1, h2⟩ := hb
      exact (C29_members_partial hba b).2 (.inl ⟨c, h1, (hc c h1).2, h2⟩)
    have hg : geoAddresses chans (b : Int) 0 (.node i none []) = [] := by
      refine flatMap_nil_of _ _ ?_
      intro c h1
      rw [if_neg]
      rintro ⟨-, -, h⟩
      rw [(hc c h1).1] at h; simp at h
    rw [footprint, hba]
    simp only
    rw [if_neg (by simpa using hmem)]
    have : treeOf (some (Geo.node i none [])) = [Geo.node i none []] := by
      rw [treeOf, walk]; simp [Geo.kids, walk]
    rw [this, allAddresses]
    simp only [Geo.ref, linkedAddresses, allAddresses]
    rw [hg]
    rfl
  · intro a ha
    cases ha with
    | own h1 h2 h3 h4 h5 => rw [bytes_virtual _ (hc _ h2).1] at h5; simp at h5
    | placed h1 h2 h3 h4 h5 h6 h7 h8 h9 h10 h11 => rw [bytes_virtual _ (hc _ h6).1] at h11; simp at h11
    | overwritten h1 h2 h3 h4 h5 h6 h7 h8 h9 h10 h11 => rw [bytes_virtual _ (hc _ h6).1] at h11; simp at h11

/-- A mode with the single geometry 1 and one 8 bit channel in break 1. -/
def oneChannel (a : Nat) : List Chan := [{ geom := some 1, brk := 1, coarse := a, fine := 0, ultra := 0, uber := 0 }]

/-- C28 does not hold for addresses above 512: a single channel at such an address has a footprint greater than 1. -/
theorem C28_high_address_violated (a : Nat) (h1 : 512 < a) (h2 : a < 65536) :
    footprint (fun _ => none) 2 (some (.node 1 none [])) (oneChannel a) 1 = some (.ok (a - 511)) ∧
      SmallestBlock (Uses (fun _ => none) (.node 1 none []) (oneChannel a) 1) 1 := by
  constructor
  · have hba : breakArray (fun _ => none) 2 (some (.node 1 none [])) (oneChannel a) = some (.ok [1]) := rfl
    have htree : treeOf (some (Geo.node 1 none [])) = [Geo.node 1 none []] := by
      rw [treeOf, walk]; simp [Geo.kids, walk]
    have hg : geoAddresses (oneChannel a) 1 0 (.node 1 none []) = [a] := by
      have hv : (Chan.isVirtual { geom := some 1, brk := 1, coarse := a, fine := 0, ultra := 0, uber := 0 }) = false := by
        simp [Chan.isVirtual]; omega
      simp only [geoAddresses, oneChannel, List.flatMap_cons, List.flatMap_nil, Geo.id]
      rw [if_pos ⟨trivial, trivial, hv⟩, addresses_bytes _ _ (show a ≠ 0 by omega)]
      rw [show bytes { geom := some 1, brk := 1, coarse := a, fine := 0, ultra := 0, uber := 0 } = [a] from by
        simp [bytes, show a ≠ 0 by omega]]
      rw [List.map_cons, List.map_nil, List.append_nil, Nat.add_zero, Nat.mod_eq_of_lt h2]
    rw [footprint, hba]
    simp only
    rw [if_neg (by decide), htree, allAddresses]
    simp only [Geo.ref, linkedAddresses, allAddresses]
    rw [show ((1 : Nat) : Int) = 1 from rfl, hg]
    simp only [List.append_nil, blockSize, List.foldl_cons, List.foldl_nil]
    rw [if_pos (by omega), if_neg (by omega)]
    rw [show (a + 65536 - 512 + 1) % 65536 = a - 511 by omega]
  · have hu : ∀ x, Uses (fun _ => none) (.node 1 none []) (oneChannel a) 1 x ↔ x = a := by
      intro x
      have hby : ∀ c ∈ oneChannel a, bytes c = [a] := by
        intro c hc
        simp only [oneChannel, List.mem_singleton] at hc
        subst hc
        simp [bytes, show a ≠ 0 by omega]
      constructor
      · intro h
        cases h with
        | own g1 g2 g3 g4 g5 => rw [hby _ g2] at g5; simpa using g5
        | placed g1 g2 g3 g4 => simp at g4
        | overwritten g1 g2 g3 g4 => simp at g4
      · rintro rfl
        exact Uses.own (c := { geom := some 1, brk := 1, coarse := x, fine := 0, ultra := 0, uber := 0 }) (.self _)
          (by simp [oneChannel]) rfl rfl (by rw [hby _ (by simp [oneChannel])]; simp)
    refine ⟨a, Nat.le_refl _, (hu a).2 rfl, (hu _).2 (by omega), ?_⟩
    intro x hx
    rw [hu] at hx
    omega

/-- C28 does not hold for nested references: what a reference inside a referenced geometry places is ignored. Here the body
refers to a head, the head refers to a pixel whose channel uses address 1 + 30 − 1 through that reference; only the
channel of the head itself is seen. -/
theorem C28_nested_violated :
    let toPixel : Ref := { linked := some 20, breaks := [{ brk := 1, address := 30 }] }
    let toHead : Ref := { linked := some 10, breaks := [{ brk := 1, address := 1 }] }
    let root : Geo := .node 1 none [.node 2 (some toHead) []]
    let heap : Nat → Option Geo := fun i => if i = 10 then some (.node 10 none [.node 11 (some toPixel) []])
      else if i = 20 then some (.node 20 none []) else none
    let chans : List Chan := [{ geom := some 10, brk := 1, coarse := 1, fine := 0, ultra := 0, uber := 0 },
      { geom := some 20, brk := 1, coarse := 1, fine := 0, ultra := 0, uber := 0 }]
    Uses heap root chans 1 1 ∧ Uses heap root chans 1 30 ∧ footprint heap 20 (some root) chans 1 = some (.ok 1) := by
  intro toPixel toHead root heap chans
  have h1 : Reaches heap root (.node 2 (some toHead) []) := .kid (k := .node 2 (some toHead) []) (by simp [root, Geo.kids]) (.self _)
  have h2 : Reaches heap root (.node 11 (some toPixel) []) := by
    refine .kid (k := .node 2 (some toHead) []) (by simp [root, Geo.kids]) ?_
    refine .link (r := toHead) (i := 10) (t := .node 10 none [.node 11 (some toPixel) []]) rfl rfl rfl ?_
    exact .kid (k := .node 11 (some toPixel) []) (by simp [Geo.kids]) (.self _)
  refine ⟨?_, ?_, of_isOk (by decide +kernel)⟩
  · exact Uses.placed (x := 1) (i := 10) (br := { brk := 1, address := 1 }) (t := .node 10 none [.node 11 (some toPixel) []])
      (c := { geom := some 10, brk := 1, coarse := 1, fine := 0, ultra := 0, uber := 0 })
      h1 rfl rfl rfl (.self _) (by simp [chans]) rfl rfl (by decide) rfl (by simp [bytes])
  · exact Uses.placed (x := 1) (i := 20) (br := { brk := 1, address := 30 }) (t := .node 20 none [])
      (c := { geom := some 20, brk := 1, coarse := 1, fine := 0, ultra := 0, uber := 0 })
      h2 rfl rfl rfl (.self _) (by simp [chans]) rfl rfl (by decide) rfl (by simp [bytes])

/-- C28 depends on the order in which a reference lists its breaks: with the breaks listed as 2, 1 the address given for
break 2 is applied to break 1. Channels in break 1 on the body (address 1) and on the pixel (placed at 10 in break 1)
need ten addresses; the code uses the 20 of break 2. -/
theorem C28_break_order_violated :
    let ref : Ref := { linked := some 10, breaks := [{ brk := 2, address := 20 }, { brk := 1, address := 10 }] }
    let root : Geo := .node 1 none [.node 2 (some ref) []]
    let heap : Nat → Option Geo := fun i => if i = 10 then some (.node 10 none []) else none
    let chans : List Chan := [{ geom := some 1, brk := 1, coarse := 1, fine := 0, ultra := 0, uber := 0 },
      { geom := some 10, brk := 1, coarse := 1, fine := 0, ultra := 0, uber := 0 }]
    footprint heap 20 (some root) chans 1 = some (.ok 20) ∧ Uses heap root chans 1 10 ∧ ∀ a, Uses heap root chans 1 a → a ≤ 10 := by
  intro ref root heap chans
  refine ⟨of_isOk (by decide +kernel), ?_, ?_⟩
  · have h1 : Reaches heap root (.node 2 (some ref) []) := .kid (k := .node 2 (some ref) []) (by simp [root, Geo.kids]) (.self _)
    exact Uses.placed (x := 1) (i := 10) (br := { brk := 1, address := 10 }) (t := .node 10 none [])
      (c := { geom := some 10, brk := 1, coarse := 1, fine := 0, ultra := 0, uber := 0 })
      h1 rfl rfl rfl (.self _) (by simp [chans]) rfl rfl (by decide) rfl (by simp [bytes])
  · have hin : ∀ g, InTree root g → ∀ r, g.ref = some r → r = ref := by
      intro g h r hr
      cases h with
      | self => simp [root, Geo.ref] at hr
      | kid hk h =>
        simp only [root, Geo.kids, List.mem_singleton] at hk
        subst hk
        cases h with
        | self => simpa [Geo.ref] using hr.symm
        | kid hk h => simp [Geo.kids] at hk
    have hn : Spec.NotNested heap root := by
      intro g r i t h1 h2 h3 h4 g' h5
      have := hin g h1 r h2
      subst this
      obtain rfl : 10 = i := by simpa [ref] using h3
      obtain rfl : Geo.node 10 none [] = t := by simpa [heap] using h4
      cases h5 with
      | self => rfl
      | kid hk h => simp [Geo.kids] at hk
    have hx : ∀ c ∈ chans, ∀ x ∈ bytes c, x = 1 := by
      intro c hc x hx
      simp only [chans, List.mem_cons, List.not_mem_nil, or_false] at hc
      rcases hc with rfl | rfl <;> simpa [bytes] using hx
    have hz : ∀ c ∈ chans, c.brk ≠ 0 := by
      intro c hc
      simp only [chans, List.mem_cons, List.not_mem_nil, or_false] at hc
      rcases hc with rfl | rfl <;> decide
    intro a ha
    cases ha with
    | own h1 h2 h3 h4 h5 => rw [hx _ h2 _ h5]; decide
    | placed h1 h2 h3 h4 h5 h6 h7 h8 h9 h10 h11 =>
      rcases reaches_notNested hn h1 (.self _) with hr | hnone
      · have := hin _ hr _ h2
        subst this
        simp [ref] at h10
        subst h10
        rw [hx _ h6 _ h11]; decide
      · rw [hnone] at h2; simp at h2
    | overwritten h1 h2 h3 h4 h5 h6 h7 h8 h9 h10 h11 => exact absurd h8 (hz _ h6)

/-- A reference with fewer breaks than its geometry uses makes the code read beyond the list of breaks. -/
theorem C28_missing_break_violated (b : Nat) (hb : 0 < b) :
    let ref : Ref := { linked := some 10, breaks := [] }
    let root : Geo := .node 1 none [.node 2 (some ref) []]
    let heap : Nat → Option Geo := fun i => if i = 10 then some (.node 10 none []) else none
    let chans : List Chan := [{ geom := some 10, brk := b, coarse := 1, fine := 0, ultra := 0, uber := 0 }]
    footprint heap 20 (some root) chans b = some (.error ()) := by
  intro ref root heap chans
  have hb' : (b : Int) ≠ 0 := by omega
  have hba : breakArray heap 20 (some root) chans = some (.ok [(b : Int)]) := by
    have : channelBreaks [ref] chans [] = .ok [(b : Int)] := by
      simp only [chans, channelBreaks]
      rw [if_neg hb']
      rfl
    show (match channelBreaks [ref] chans [] with
      | .error e => some (Except.error e)
      | .ok l => some (.ok (sortInts l))) = _
    rw [this]
    rfl
  have htree : treeOf (some root) = [root, .node 2 (some ref) []] := by
    simp [treeOf, walk, root, Geo.kids]
  have htree2 : treeOf (ref.linked.bind heap) = [.node 10 none []] := by
    simp [treeOf, walk, ref, heap, Geo.kids]
  have hrb : refBreaks chans [.node 10 none []] = [(b : Int)] := by
    have hb'' : b ≠ 0 := by omega
    simp [refBreaks, chans, Geo.id, pushNew, sortInts, insertSorted, hb'']
  rw [footprint, hba]
  simp only
  rw [if_neg (by simp), htree]
  have h2 : linkedAddresses heap chans b (some ref) = .error () := by
    show refAddresses heap chans b ref = _
    rw [refAddresses, htree2]
    rw [directAddresses, hrb]
    simp [ref]
  rw [allAddresses, allAddresses]
  simp only [root, Geo.ref]
  rw [h2]
  rfl

/-- C28: a channel is virtual exactly if none of its four address parts is set. -/
theorem C28_virtual (c : Chan) : c.isVirtual = true ↔ ∀ a ∈ [c.coarse, c.fine, c.ultra, c.uber], a = 0 := by
  simp [Chan.isVirtual]

/-- A channel with only the finest part set is not virtual. -/
example : (Chan.isVirtual ⟨some 1, 1, 0, 0, 0, 4⟩) = false := by decide

end Verif.Geo
