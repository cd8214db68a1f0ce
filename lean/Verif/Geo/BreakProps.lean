import Verif.Geo.Lemmas

/-!
# The list of breaks of a DMX mode (C29)
-/

namespace Verif.Geo

open Spec

/-! ### Which references are collected -/

/-- The references reachable from the pointers on the stack. -/
def RefFrom (heap : Nat → Option Geo) (st : List (Option Geo)) (r : Ref) : Prop :=
  ∃ g0 g, some g0 ∈ st ∧ Reaches heap g0 g ∧ g.ref = some r

theorem collectRefs_mem (heap : Nat → Option Geo) : ∀ (fuel : Nat) (st : List (Option Geo)) (acc res : List Ref),
    collectRefs heap fuel st acc = some res → ∀ r, r ∈ res ↔ r ∈ acc ∨ RefFrom heap st r := by
  intro fuel
  induction fuel with
  | zero =>
    intro st acc res h r
    cases st with
    | nil =>
      obtain rfl : acc = res := by simpa [collectRefs] using h
      constructor
      · exact .inl
      · rintro (h | ⟨g0, g, h, -⟩)
        · exact h
        · simp at h
    | cons a st => simp [collectRefs] at h
  | succ n ih =>
    intro st acc res h r
    cases st with
    | nil =>
      obtain rfl : acc = res := by simpa [collectRefs] using h
      constructor
      · exact .inl
      · rintro (h | ⟨g0, g, h, -⟩)
        · exact h
        · simp at h
    | cons a st =>
      cases a with
      | none =>
        rw [collectRefs] at h
        rw [ih _ _ _ h r]
        refine or_congr Iff.rfl ⟨?_, ?_⟩
        · rintro ⟨g0, g, h1, h2⟩; exact ⟨g0, g, by simp [h1], h2⟩
        · rintro ⟨g0, g, h1, h2⟩
          exact ⟨g0, g, by simpa using h1, h2⟩
      | some x =>
        rw [collectRefs] at h
        cases hx : x.ref with
        | none =>
          rw [hx] at h
          rw [ih _ _ _ h r]
          refine or_congr Iff.rfl ⟨?_, ?_⟩
          · rintro ⟨g0, g, h1, h2, h3⟩
            rcases List.mem_append.1 h1 with h1 | h1
            · obtain ⟨k, hk, he⟩ := List.mem_map.1 h1
              obtain rfl := Option.some.inj he
              exact ⟨x, g, by simp, .kid (List.mem_reverse.1 hk) h2, h3⟩
            · exact ⟨g0, g, by simp [h1], h2, h3⟩
          · rintro ⟨g0, g, h1, h2, h3⟩
            rcases List.mem_cons.1 h1 with h1 | h1
            · obtain rfl := Option.some.inj h1
              cases h2 with
              | self => rw [hx] at h3; simp at h3
              | kid hk hr => exact ⟨_, g, List.mem_append_left _ (List.mem_map.2 ⟨_, List.mem_reverse.2 hk, rfl⟩), hr, h3⟩
              | link hr1 _ _ _ => rw [hx] at hr1; simp at hr1
            · exact ⟨g0, g, List.mem_append_right _ h1, h2, h3⟩
        | some rx =>
          rw [hx] at h
          simp only at h
          rw [ih _ _ _ h r, List.mem_append, List.mem_singleton, or_assoc]
          refine or_congr Iff.rfl ⟨?_, ?_⟩
          · rintro (rfl | ⟨g0, g, h1, h2, h3⟩)
            · exact ⟨x, x, by simp, .self x, hx⟩
            · rcases List.mem_cons.1 h1 with h1 | h1
              · cases hl : rx.linked with
                | none => rw [hl] at h1; simp at h1
                | some i =>
                  rw [hl, Option.bind_some] at h1
                  exact ⟨x, g, by simp, .link hx hl h1.symm h2, h3⟩
              · rcases List.mem_append.1 h1 with h1 | h1
                · obtain ⟨k, hk, he⟩ := List.mem_map.1 h1
                  obtain rfl := Option.some.inj he
                  exact ⟨x, g, by simp, .kid (List.mem_reverse.1 hk) h2, h3⟩
                · exact ⟨g0, g, by simp [h1], h2, h3⟩
          · rintro ⟨g0, g, h1, h2, h3⟩
            rcases List.mem_cons.1 h1 with h1 | h1
            · obtain rfl := Option.some.inj h1
              cases h2 with
              | self => rw [hx] at h3; exact .inl (Option.some.inj h3).symm
              | kid hk hr =>
                exact .inr ⟨_, g, List.mem_cons_of_mem _ (List.mem_append_left _ (List.mem_map.2 ⟨_, List.mem_reverse.2 hk, rfl⟩)), hr, h3⟩
              | link hr1 hr2 hr3 hr =>
                rw [hx] at hr1
                obtain rfl := Option.some.inj hr1
                refine .inr ⟨_, g, List.mem_cons.2 (.inl ?_), hr, h3⟩
                rw [hr2, Option.bind_some, hr3]
            · exact .inr ⟨g0, g, List.mem_cons_of_mem _ (List.mem_append_right _ h1), h2, h3⟩

/-! ### Which breaks come out -/

theorem overwriteBreaks_spec (c : Chan) (refs : List Ref) : ∀ (acc res : List Int), overwriteBreaks c refs acc = .ok res →
    (acc.Nodup → res.Nodup) ∧ ∀ x, x ∈ res ↔ x ∈ acc ∨
      ∃ r ∈ refs, r.linked = c.geom ∧ ∃ br, r.breaks.getLast? = some br ∧ br.brk = x := by
  induction refs with
  | nil =>
    intro acc res h
    obtain rfl : acc = res := by simpa [overwriteBreaks] using h
    simp
  | cons r t ih =>
    intro acc res h
    rw [overwriteBreaks] at h
    by_cases hl : r.linked = c.geom
    · rw [if_pos hl] at h
      cases hb : r.breaks.getLast? with
      | none => rw [hb] at h; simp at h
      | some b =>
        rw [hb] at h
        obtain ⟨i1, i2⟩ := ih _ _ h
        refine ⟨fun hn => i1 (nodup_pushNew _ _ hn), fun x => ?_⟩
        rw [i2, mem_pushNew]
        constructor
        · rintro ((h1 | h1) | ⟨r', h1, h2⟩)
          · exact .inl h1
          · exact .inr ⟨r, by simp, hl, b, hb, h1.symm⟩
          · exact .inr ⟨r', by simp [h1], h2⟩
        · rintro (h1 | ⟨r', h1, h2, br, h3, h4⟩)
          · exact .inl (.inl h1)
          · rcases List.mem_cons.1 h1 with rfl | h1
            · rw [hb] at h3
              obtain rfl := Option.some.inj h3
              exact .inl (.inr h4.symm)
            · exact .inr ⟨r', h1, h2, br, h3, h4⟩
    · rw [if_neg hl] at h
      obtain ⟨i1, i2⟩ := ih _ _ h
      refine ⟨i1, fun x => ?_⟩
      rw [i2]
      constructor
      · rintro (h1 | ⟨r', h1, h2⟩)
        · exact .inl h1
        · exact .inr ⟨r', by simp [h1], h2⟩
      · rintro (h1 | ⟨r', h1, h2⟩)
        · exact .inl h1
        · rcases List.mem_cons.1 h1 with rfl | h1
          · exact absurd h2.1 hl
          · exact .inr ⟨r', h1, h2⟩

/-- The break `x` counts because of the channel `c`. -/
def Counts (refs : List Ref) (c : Chan) (x : Int) : Prop :=
  c.brk ≠ 0 ∧ c.brk = x ∨ c.brk = 0 ∧ ∃ r ∈ refs, r.linked = c.geom ∧ ∃ br, r.breaks.getLast? = some br ∧ br.brk = x

theorem channelBreaks_spec (refs : List Ref) (chans : List Chan) : ∀ (acc res : List Int), channelBreaks refs chans acc = .ok res →
    (acc.Nodup → res.Nodup) ∧ ∀ x, x ∈ res ↔ x ∈ acc ∨ ∃ c ∈ chans, Counts refs c x := by
  induction chans with
  | nil =>
    intro acc res h
    obtain rfl : acc = res := by simpa [channelBreaks] using h
    simp
  | cons c t ih =>
    intro acc res h
    rw [channelBreaks] at h
    by_cases hz : c.brk = 0
    · rw [if_pos hz] at h
      cases ho : overwriteBreaks c refs acc with
      | error e => rw [ho] at h; simp at h
      | ok acc' =>
        rw [ho] at h
        obtain ⟨i1, i2⟩ := ih _ _ h
        obtain ⟨j1, j2⟩ := overwriteBreaks_spec c refs _ _ ho
        refine ⟨fun hn => i1 (j1 hn), fun x => ?_⟩
        rw [i2, j2]
        constructor
        · rintro ((h1 | h1) | ⟨c', h1, h2⟩)
          · exact .inl h1
          · exact .inr ⟨c, by simp, .inr ⟨hz, h1⟩⟩
          · exact .inr ⟨c', by simp [h1], h2⟩
        · rintro (h1 | ⟨c', h1, h2⟩)
          · exact .inl (.inl h1)
          · rcases List.mem_cons.1 h1 with rfl | h1
            · rcases h2 with h2 | h2
              · exact absurd hz h2.1
              · exact .inl (.inr h2.2)
            · exact .inr ⟨c', h1, h2⟩
    · rw [if_neg hz] at h
      obtain ⟨i1, i2⟩ := ih _ _ h
      refine ⟨fun hn => i1 (nodup_pushNew _ _ hn), fun x => ?_⟩
      rw [i2, mem_pushNew]
      constructor
      · rintro ((h1 | h1) | ⟨c', h1, h2⟩)
        · exact .inl h1
        · exact .inr ⟨c, by simp, .inl ⟨hz, h1.symm⟩⟩
        · exact .inr ⟨c', by simp [h1], h2⟩
      · rintro (h1 | ⟨c', h1, h2⟩)
        · exact .inl (.inl h1)
        · rcases List.mem_cons.1 h1 with rfl | h1
          · rcases h2 with h2 | h2
            · exact .inl (.inr h2.2.symm)
            · exact absurd h2.1 hz
          · exact .inr ⟨c', h1, h2⟩

theorem breakArray_ok {heap : Nat → Option Geo} {fuel : Nat} {root : Option Geo} {chans : List Chan} {breaks : List Int}
    (h : breakArray heap fuel root chans = some (.ok breaks)) :
    ∃ refs l, collectRefs heap fuel (root.toList.map some) [] = some refs ∧ channelBreaks refs chans [] = .ok l ∧
      breaks = sortInts l := by
  rw [breakArray] at h
  cases hc : collectRefs heap fuel (root.toList.map some) [] with
  | none => rw [hc] at h; simp at h
  | some refs =>
    rw [hc] at h
    simp only at h
    cases hb : channelBreaks refs chans [] with
    | error e => rw [hb] at h; simp at h
    | ok l =>
      rw [hb] at h
      simp only [Option.some.injEq, Except.ok.injEq] at h
      exact ⟨refs, l, rfl, hb, h.symm⟩

/-- C29: the breaks are listed in ascending order and each once. -/
theorem C29_sorted {heap : Nat → Option Geo} {fuel : Nat} {root : Option Geo} {chans : List Chan} {breaks : List Int}
    (h : breakArray heap fuel root chans = some (.ok breaks)) : breaks.Pairwise (· < ·) := by
  obtain ⟨refs, l, -, h2, rfl⟩ := breakArray_ok h
  exact sortInts_lt l ((channelBreaks_spec refs chans _ _ h2).1 List.nodup_nil)

/-- C29 (`_partial`: see `C29_overwrite_child_violated`): a break is listed exactly when a channel has it as its own break,
or a channel that takes its break from the reference sits on the very geometry to which a reachable reference leads whose
last break it is. -/
theorem C29_members_partial {heap : Nat → Option Geo} {fuel : Nat} {root : Geo} {chans : List Chan} {breaks : List Int}
    (h : breakArray heap fuel (some root) chans = some (.ok breaks)) (x : Int) :
    x ∈ breaks ↔ (∃ c ∈ chans, c.brk ≠ 0 ∧ c.brk = x) ∨
      ∃ c ∈ chans, c.brk = 0 ∧ ∃ g r br, Reaches heap root g ∧ g.ref = some r ∧ r.linked = c.geom ∧
        r.breaks.getLast? = some br ∧ br.brk = x := by
  obtain ⟨refs, l, h1, h2, rfl⟩ := breakArray_ok h
  have hm := collectRefs_mem heap _ _ _ _ h1
  rw [mem_sortInts, (channelBreaks_spec refs chans _ _ h2).2]
  have hr : ∀ r, r ∈ refs ↔ ∃ g, Reaches heap root g ∧ g.ref = some r := by
    intro r
    rw [hm]
    constructor
    · rintro (h | ⟨g0, g, h3, h4, h5⟩)
      · simp at h
      · have : g0 = root := by simpa using h3
        exact ⟨g, this ▸ h4, h5⟩
    · rintro ⟨g, h3, h4⟩
      exact .inr ⟨root, g, by simp, h3, h4⟩
  constructor
  · rintro (h3 | ⟨c, hc, h3 | ⟨h3, r, h4, h5, br, h6, h7⟩⟩)
    · simp at h3
    · exact .inl ⟨c, hc, h3⟩
    · obtain ⟨g, g1, g2⟩ := (hr r).1 h4
      exact .inr ⟨c, hc, h3, g, r, br, g1, g2, h5, h6, h7⟩
  · rintro (⟨c, hc, h3⟩ | ⟨c, hc, h3, g, r, br, h4, h5, h6, h7, h8⟩)
    · exact .inr ⟨c, hc, .inl h3⟩
    · exact .inr ⟨c, hc, .inr ⟨h3, r, (hr r).2 ⟨g, h4, h5⟩, h6, br, h7, h8⟩⟩

/-- A mode without geometry lists the breaks of its channels only. -/
theorem C29_no_geometry {heap : Nat → Option Geo} {fuel : Nat} {chans : List Chan} {breaks : List Int}
    (h : breakArray heap fuel none chans = some (.ok breaks)) (x : Int) :
    x ∈ breaks ↔ ∃ c ∈ chans, c.brk ≠ 0 ∧ c.brk = x := by
  obtain ⟨refs, l, h1, h2, rfl⟩ := breakArray_ok h
  have hm := collectRefs_mem heap _ _ _ _ h1
  rw [mem_sortInts, (channelBreaks_spec refs chans _ _ h2).2]
  have hr : ∀ r, r ∉ refs := by
    intro r hr
    rcases (hm r).1 hr with h | ⟨g0, g, h3, -⟩
    · simp at h
    · simp at h3
  constructor
  · rintro (h3 | ⟨c, hc, h3 | ⟨h3, r, h4, h5⟩⟩)
    · simp at h3
    · exact ⟨c, hc, h3⟩
    · exact absurd h4 (hr r)
  · rintro ⟨c, hc, h3⟩
    exact .inr ⟨c, hc, .inl h3⟩

/-! ### Ending -/

/-- References never lead back: some number decreases from a referenced geometry to those its tree refers to. -/
def Spec.Acyclic (heap : Nat → Option Geo) : Prop :=
  ∃ depth : Nat → Nat, ∀ i t, heap i = some t → ∀ g, InTree t g → ∀ r, g.ref = some r → ∀ j, r.linked = some j →
    depth j < depth i

def Ends (heap : Nat → Option Geo) (st : List (Option Geo)) : Prop :=
  ∀ acc, ∃ fuel res, collectRefs heap fuel st acc = some res

theorem ends_nil (heap : Nat → Option Geo) : Ends heap [] := fun acc => ⟨0, acc, rfl⟩

theorem ends_null {heap : Nat → Option Geo} {st : List (Option Geo)} (h : Ends heap st) : Ends heap (none :: st) := by
  intro acc
  obtain ⟨f, res, hf⟩ := h acc
  exact ⟨f + 1, res, by rw [collectRefs]; exact hf⟩

/-- If every reference below `g` leads to a geometry from which the loop ends, it ends from `g`. -/
theorem ends_tree {heap : Nat → Option Geo} (n : Nat) : ∀ (gs : List Geo) (st : List (Option Geo)), sizes gs ≤ n → Ends heap st →
    (∀ g0 ∈ gs, ∀ g, InTree g0 g → ∀ r, g.ref = some r → ∀ st, Ends heap st → Ends heap (r.linked.bind heap :: st)) →
    Ends heap (gs.map some ++ st) := by
  induction n with
  | zero =>
    intro gs st hn hst _
    cases gs with
    | nil => exact hst
    | cons g t => rw [sizes, size_eq] at hn; omega
  | succ n ih =>
    intro gs st hn hst hl
    cases gs with
    | nil => exact hst
    | cons g t =>
      rw [sizes, size_eq] at hn
      have h1 : Ends heap (t.map some ++ st) := ih t st (by omega) hst (fun g0 hg => hl g0 (by simp [hg]))
      have h2 : Ends heap (g.kids.reverse.map some ++ (t.map some ++ st)) := by
        refine ih _ _ (by rw [sizes_reverse]; omega) h1 ?_
        intro g0 hg0 g' hin
        exact hl g (by simp) g' (.kid (List.mem_reverse.1 hg0) hin)
      intro acc
      cases hr : g.ref with
      | none =>
        obtain ⟨f, res, hf⟩ := h2 acc
        refine ⟨f + 1, res, ?_⟩
        rw [List.map_cons, List.cons_append, collectRefs, hr]
        exact hf
      | some r =>
        obtain ⟨f, res, hf⟩ := hl g (by simp) g (.self g) r hr _ h2 (acc ++ [r])
        refine ⟨f + 1, res, ?_⟩
        rw [List.map_cons, List.cons_append, collectRefs, hr]
        exact hf

theorem ends_id {heap : Nat → Option Geo} (depth : Nat → Nat)
    (hd : ∀ i t, heap i = some t → ∀ g, InTree t g → ∀ r, g.ref = some r → ∀ j, r.linked = some j → depth j < depth i)
    (n : Nat) : ∀ i, depth i < n → ∀ st, Ends heap st → Ends heap (heap i :: st) := by
  induction n with
  | zero => intro i hi; omega
  | succ n ih =>
    intro i hi st hst
    cases ht : heap i with
    | none => exact ends_null hst
    | some t =>
      refine ends_tree _ [t] st (Nat.le_refl _) hst ?_
      intro g0 hg0 g hin r hr st' hst'
      obtain rfl : g0 = t := by simpa using hg0
      cases hl : r.linked with
      | none => exact ends_null hst'
      | some j =>
        have := hd i _ ht g hin r hr j hl
        exact ih j (by omega) st' hst'

/-- C29: without circular references the list is computed (the search of the geometry ends) … -/
theorem C29_ends {heap : Nat → Option Geo} (h : Spec.Acyclic heap) (root : Option Geo) (chans : List Chan) :
    ∃ fuel res, breakArray heap fuel root chans = some res := by
  obtain ⟨depth, hd⟩ := h
  have he : Ends heap (root.toList.map some) := by
    cases root with
    | none => exact ends_nil heap
    | some g =>
      refine ends_tree _ [g] [] (Nat.le_refl _) (ends_nil heap) ?_
      intro g0 _ g' _ r _ st hst
      cases hl : r.linked with
      | none => exact ends_null hst
      | some j => exact ends_id depth hd (depth j + 1) j (by omega) st hst
  obtain ⟨fuel, refs, hf⟩ := he []
  rw [show (∃ fuel res, breakArray heap fuel root chans = some res) ↔
    ∃ fuel, (breakArray heap fuel root chans).isSome from by simp only [Option.isSome_iff_exists]]
  refine ⟨fuel, ?_⟩
  rw [breakArray, hf]
  simp only
  split <;> rfl

/-- … and no access is out of bounds when every geometry reference has a break. -/
theorem C29_in_bounds {heap : Nat → Option Geo} {fuel : Nat} {root : Geo} {chans : List Chan} {res : Except Unit (List Int)}
    (h : breakArray heap fuel (some root) chans = some res)
    (hb : ∀ g r, Reaches heap root g → g.ref = some r → r.breaks ≠ []) : ∃ breaks, res = .ok breaks := by
  rw [breakArray] at h
  cases hc : collectRefs heap fuel ((some root).toList.map some) [] with
  | none => rw [hc] at h; simp at h
  | some refs =>
    rw [hc] at h
    simp only at h
    have hne : ∀ r ∈ refs, r.breaks ≠ [] := by
      intro r hr
      rcases (collectRefs_mem heap _ _ _ _ hc r).1 hr with h | ⟨g0, g, h3, h4, h5⟩
      · simp at h
      · obtain rfl : g0 = root := by simpa using h3
        exact hb g r h4 h5
    have ho : ∀ (c : Chan) (rs : List Ref), (∀ r ∈ rs, r.breaks ≠ []) → ∀ acc, ∃ l, overwriteBreaks c rs acc = .ok l := by
      intro c rs
      induction rs with
      | nil => intro _ acc; exact ⟨acc, rfl⟩
      | cons r t ih =>
        intro hn acc
        rw [overwriteBreaks]
        split
        · cases hl : r.breaks.getLast? with
          | none => exact absurd (List.getLast?_eq_none_iff.1 hl) (hn r (by simp))
          | some b => exact ih (fun r hr => hn r (by simp [hr])) _
        · exact ih (fun r hr => hn r (by simp [hr])) _
    have hch : ∀ (cs : List Chan) acc, ∃ l, channelBreaks refs cs acc = .ok l := by
      intro cs
      induction cs with
      | nil => intro acc; exact ⟨acc, rfl⟩
      | cons c t ih =>
        intro acc
        rw [channelBreaks]
        split
        · obtain ⟨l, hl⟩ := ho c refs hne acc
          rw [hl]
          exact ih l
        · exact ih _
    obtain ⟨l, hl⟩ := hch chans []
    rw [hl] at h
    exact ⟨sortInts l, by simpa using h.symm⟩

/-- C29 is not computed at all when a reference in the tree of the mode leads back to the geometry of the mode: the loop
goes on (and its memory grows) forever. -/
theorem C29_cycle_violated {heap : Nat → Option Geo} {root g : Geo} {r : Ref} (hin : InTree root g) (hr : g.ref = some r)
    (hl : r.linked = some root.id) (hh : heap root.id = some root) (chans : List Chan) (fuel : Nat) :
    breakArray heap fuel (some root) chans = none := by
  have key : ∀ (fuel : Nat) (st : List (Option Geo)) (acc : List Ref), (∃ x, some x ∈ st ∧ InTree x g) →
      collectRefs heap fuel st acc = none := by
    intro fuel
    induction fuel with
    | zero =>
      rintro st acc ⟨x, hx, -⟩
      cases st with
      | nil => simp at hx
      | cons a t => rfl
    | succ n ih =>
      rintro st acc ⟨x, hx, ht⟩
      cases st with
      | nil => simp at hx
      | cons a t =>
        cases a with
        | none =>
          rw [collectRefs]
          exact ih _ _ ⟨x, by simpa using hx, ht⟩
        | some y =>
          rcases List.mem_cons.1 hx with hx | hx
          · obtain rfl := Option.some.inj hx
            rw [collectRefs]
            cases ht with
            | self =>
              rw [hr]
              refine ih _ _ ⟨root, List.mem_cons.2 (.inl ?_), hin⟩
              rw [hl, Option.bind_some, hh]
            | kid hk hkt =>
              have hmem : ∀ z, some z ∈ x.kids.reverse.map some ++ t ↔ z ∈ x.kids ∨ some z ∈ t := by
                intro z; simp
              split
              · exact ih _ _ ⟨_, (hmem _).2 (.inl hk), hkt⟩
              · exact ih _ _ ⟨_, List.mem_cons_of_mem _ ((hmem _).2 (.inl hk)), hkt⟩
          · rw [collectRefs]
            split
            · exact ih _ _ ⟨x, List.mem_append_right _ hx, ht⟩
            · exact ih _ _ ⟨x, List.mem_cons_of_mem _ (List.mem_append_right _ hx), ht⟩
  rw [breakArray, key fuel _ [] ⟨root, by simp, hin⟩]

/-! ### Concrete modes -/

/-- A heap with two geometries: 1 is a body with the references 2 and 3 to the pixel 10 (with a lens 11). -/
def sampleRef (a : Nat) : Ref := { linked := some 10, breaks := [{ brk := 1, address := a }] }
def sampleRoot : Geo := .node 1 none [.node 2 (some (sampleRef 5)) [], .node 3 (some (sampleRef 8)) []]
def samplePixel : Geo := .node 10 none [.node 11 none []]
def sampleHeap : Nat → Option Geo := fun i => if i = 1 then some sampleRoot else if i = 10 then some samplePixel else none
/-- A dimmer on the body in break 2 and a 16 bit channel on the pixel taking its break from the reference. -/
def sampleChans : List Chan :=
  [{ geom := some 1, brk := 2, coarse := 1, fine := 0, ultra := 0, uber := 0 },
   { geom := some 10, brk := 0, coarse := 1, fine := 2, ultra := 0, uber := 0 }]

theorem sample_breaks : breakArray sampleHeap 20 (some sampleRoot) sampleChans = some (.ok [1, 2]) := by rfl

/-- The hypotheses of the theorems above are met by this mode. -/
example : ([1, 2] : List Int).Pairwise (· < ·) := C29_sorted sample_breaks

theorem sample_tree {t g : Geo} (h : InTree t g) (ht : t = samplePixel) : g.ref = none := by
  subst ht
  cases h with
  | self => rfl
  | kid hk h =>
    rename_i k
    obtain rfl : k = Geo.node 11 none [] := by simpa [samplePixel, Geo.kids] using hk
    cases h with
    | self => rfl
    | kid hk h => simp [Geo.kids] at hk

example : Spec.Acyclic sampleHeap := by
  refine ⟨fun i => if i = 1 then 1 else 0, ?_⟩
  intro i t hi g hin r hr j hj
  by_cases h1 : i = 1
  · subst h1
    obtain rfl : t = sampleRoot := by simpa [sampleHeap] using hi.symm
    have : ∀ g, InTree sampleRoot g → ∀ r, g.ref = some r → r.linked = some 10 := by
      intro g hg r hr
      cases hg with
      | self => simp [sampleRoot, Geo.ref] at hr
      | kid hk h =>
        simp only [sampleRoot, Geo.kids, List.mem_cons, List.not_mem_nil, or_false] at hk
        rcases hk with rfl | rfl
        · cases h with
          | self => simp only [Geo.ref, Option.some.injEq] at hr; subst hr; rfl
          | kid hk h => simp [Geo.kids] at hk
        · cases h with
          | self => simp only [Geo.ref, Option.some.injEq] at hr; subst hr; rfl
          | kid hk h => simp [Geo.kids] at hk
    have := this g hin r hr
    rw [hj] at this
    obtain rfl := Option.some.inj this
    decide
  · by_cases h2 : i = 10
    · subst h2
      have := sample_tree hin (by simpa [sampleHeap] using hi.symm)
      rw [this] at hr
      simp at hr
    · rw [sampleHeap, if_neg h1, if_neg h2] at hi
      simp at hi

/-- C29 does not hold for a channel that takes its break from the reference and sits on a child of the referenced geometry:
its break is not listed although the channel uses an address in it. -/
theorem C29_overwrite_child_violated (b address : Nat) (ha : 1 ≤ address) :
    let ref : Ref := { linked := some 10, breaks := [{ brk := b, address := address }] }
    let root : Geo := .node 1 none [.node 2 (some ref) []]
    let heap : Nat → Option Geo := fun i => if i = 10 then some (.node 10 none [.node 11 none []]) else none
    let chans : List Chan := [{ geom := some 11, brk := 0, coarse := 1, fine := 0, ultra := 0, uber := 0 }]
    Uses heap root chans b address ∧ breakArray heap 20 (some root) chans = some (.ok []) := by
  intro ref root heap chans
  refine ⟨?_, rfl⟩
  have h1 : Reaches heap root (.node 2 (some ref) []) := .kid (k := .node 2 (some ref) []) (by simp [root, Geo.kids]) (.self _)
  have h2 : InTree (.node 10 none [.node 11 none []]) (.node 11 none []) :=
    .kid (k := .node 11 none []) (by simp [Geo.kids]) (.self _)
  have := Uses.overwritten (chans := chans) (b := (b : Int)) (x := 1) (i := 10) (br := { brk := b, address := address })
    (c := { geom := some 11, brk := 0, coarse := 1, fine := 0, ultra := 0, uber := 0 })
    h1 rfl rfl rfl h2 (by simp [chans]) rfl rfl rfl rfl (by simp [bytes])
  rwa [show 1 + (address - 1) = address by omega] at this

end Verif.Geo
