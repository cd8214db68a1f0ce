import Verif.Chan.Model
import Verif.Chan.Spec

/-!
# Properties of reading channel sets (C25) and of channel functions (C27)
-/

namespace Verif.Chan

open Spec

variable {ν : Type}

/-- Strictly increasing starts. -/
abbrev Inc (l : List (ChSet ν)) : Prop := l.Pairwise (fun a b => a.start < b.start)

theorem link_nil (new : ChSet ν) : link [] new = [new] := rfl

theorem link_snoc (l : List (ChSet ν)) (last new : ChSet ν) :
    link (l ++ [last]) new = if new.start ≤ last.start then l ++ [last] else l ++ [{ last with linked := true }, new] := by
  simp [link]

theorem inc_snoc {l : List (ChSet ν)} {x : ChSet ν} : Inc (l ++ [x]) ↔ Inc l ∧ ∀ s ∈ l, s.start < x.start := by
  rw [Inc, List.pairwise_append]
  simp

theorem inc_starts {l l' : List (ChSet ν)} (h : l.map (·.start) = l'.map (·.start)) (hl : Inc l) : Inc l' := by
  have : (l.map (·.start)).Pairwise (· < ·) := List.pairwise_map.2 hl
  rw [h] at this
  exact List.pairwise_map.1 this

/-- Linking a set behind increasing ones: dropped, or appended. -/
theorem link_cases (sets : List (ChSet ν)) (new : ChSet ν) (h : Inc sets) :
    (∃ s ∈ sets, new.start ≤ s.start) ∧ link sets new = sets ∨
    (∀ s ∈ sets, s.start < new.start) ∧ ∃ l, link sets new = l ++ [new] ∧
      l.map (fun s => (s.load, s.start)) = sets.map (fun s => (s.load, s.start)) ∧
      ∀ s ∈ l, s.linked = true ∨ s ∈ sets.dropLast := by
  rcases List.eq_nil_or_concat sets with rfl | ⟨l, last, rfl⟩
  · exact .inr ⟨by simp, [], rfl, rfl, by simp⟩
  · rw [List.concat_eq_append] at h ⊢
    rw [link_snoc]
    have := (inc_snoc.1 h).2
    by_cases hn : new.start ≤ last.start
    · rw [if_pos hn]
      exact .inl ⟨⟨last, by simp, hn⟩, rfl⟩
    · rw [if_neg hn]
      refine .inr ⟨?_, l ++ [{ last with linked := true }], by simp, by simp, ?_⟩
      · intro s hs
        rcases List.mem_append.1 hs with hs | hs
        · have := this s hs; omega
        · rw [List.mem_singleton] at hs; subst hs; omega
      · intro s hs
        rcases List.mem_append.1 hs with hs | hs
        · exact .inr (by simpa using hs)
        · rw [List.mem_singleton] at hs; subst hs; exact .inl rfl

theorem link_inc {sets : List (ChSet ν)} {new : ChSet ν} (h : Inc sets) : Inc (link sets new) := by
  rcases link_cases sets new h with ⟨-, e⟩ | ⟨h1, l, e, h2, -⟩
  · rw [e]; exact h
  · have hs : l.map (·.start) = sets.map (·.start) := by
      have := congrArg (List.map Prod.snd) h2
      rwa [List.map_map, List.map_map] at this
    rw [e, inc_snoc]
    refine ⟨inc_starts hs.symm h, ?_⟩
    intro s hsl
    have : s.start ∈ sets.map (·.start) := hs ▸ List.mem_map.2 ⟨s, hsl, rfl⟩
    obtain ⟨s', hs', he⟩ := List.mem_map.1 this
    rw [← he]; exact h1 s' hs'

theorem cascade_facts (maxDmx : Nat) (l : List (ChSet ν)) (h : Inc l) (hlen : l.length < maxDmx) :
    Inc (cascade maxDmx l).1 ∧ (∀ s ∈ (cascade maxDmx l).1, (cascade maxDmx l).2 ≤ s.start ∧ s.start < maxDmx) ∧
    (cascade maxDmx l).2 ≤ maxDmx ∧
    (maxDmx - l.length ≤ (cascade maxDmx l).2 ∨ ∃ s ∈ l.head?, s.start = (cascade maxDmx l).2) ∧
    (cascade maxDmx l).1.map (·.load) = l.map (·.load) := by
  induction l with
  | nil => simp [cascade]
  | cons s t ih =>
    obtain ⟨i1, i2, i3, i4, i5⟩ := ih (List.pairwise_cons.1 h).2 (by simp at hlen; omega)
    have hs := (List.pairwise_cons.1 h).1
    rw [cascade]
    generalize hc : cascade maxDmx t = c at i1 i2 i3 i4 i5 ⊢
    obtain ⟨t', n⟩ := c
    simp only [List.length_cons] at hlen i1 i2 i3 i4 i5 ⊢
    have hlt : (if n ≤ s.start then n - 1 else s.start) < n := by
      split
      · rename_i hn
        rcases i4 with i4 | ⟨b, hb, hbe⟩
        · omega
        · have := hs b (List.mem_of_mem_head? hb); omega
      · omega
    refine ⟨List.pairwise_cons.2 ⟨?_, i1⟩, ?_, by omega, ?_, by simp [i5]⟩
    · intro x hx
      have := (i2 x hx).1
      simp only; omega
    · intro x hx
      rcases List.mem_cons.1 hx with rfl | hx
      · simp only; omega
      · have := i2 x hx; omega
    · by_cases hn : n ≤ s.start
      · rw [if_pos hn]
        rcases i4 with i4 | ⟨b, hb, hbe⟩
        · exact .inl (by omega)
        · have := hs b (List.mem_of_mem_head? hb); omega
      · rw [if_neg hn]
        exact .inr ⟨s, by simp, rfl⟩

theorem repair_inc {maxDmx : Nat} {sets sets' : List (ChSet ν)} {start start' : Nat} (h : Inc sets)
    (hr : repair maxDmx sets start = some (sets', start')) : Inc sets' := by
  unfold repair at hr
  split at hr
  · exact absurd hr (by simp)
  · rename_i hlen
    simp only at hr
    split at hr
    · obtain ⟨rfl, rfl⟩ := by simpa using hr
      exact (cascade_facts maxDmx sets h (by omega)).1
    · obtain ⟨rfl, rfl⟩ := by simpa using hr
      exact h

theorem readOne_inc {v : Bool} {maxDmx : Nat} {sets : List (ChSet ν)} (h : Inc sets) (x : ν × Nat) :
    Inc (readOne v maxDmx sets x) := by
  unfold readOne
  split
  · split
    · exact h
    · rename_i hr
      exact link_inc (repair_inc h hr)
  · exact link_inc h

theorem foldl_inc (v : Bool) (maxDmx : Nat) (nodes : List (ν × Nat)) : ∀ sets, Inc sets →
    Inc (nodes.foldl (readOne v maxDmx) sets) := by
  induction nodes with
  | nil => intro sets h; exact h
  | cons x t ih => intro sets h; exact ih _ (readOne_inc h x)

theorem setEnds_starts (l : List (ChSet ν)) :
    (setEnds l).map (fun s => (s.load, s.start)) = l.map (fun s => (s.load, s.start)) := by
  induction l with
  | nil => rfl
  | cons s t ih =>
    cases t with
    | nil => rfl
    | cons b r => rw [setEnds, List.map_cons, ih]; rfl

theorem map_start {l l' : List (ChSet ν)} (h : l.map (fun s => (s.load, s.start)) = l'.map (fun s => (s.load, s.start))) :
    l.map (·.start) = l'.map (·.start) := by
  have := congrArg (List.map Prod.snd) h
  rwa [List.map_map, List.map_map] at this

/-- C25: whatever the file contains, the channel sets kept have strictly increasing starts. -/
theorem C25_increasing (isVirtual : Bool) (maxDmx : Nat) (nodes : List (ν × Nat)) :
    (readSets isVirtual maxDmx nodes).Pairwise (fun a b => a.start < b.start) :=
  inc_starts (map_start (setEnds_starts _)).symm (foldl_inc isVirtual maxDmx nodes [] List.Pairwise.nil)

/-! ### Ends -/

/-- Only the last set is not linked, and no end has been set. -/
def Fresh (l : List (ChSet ν)) : Prop := (∀ s ∈ l.dropLast, s.linked = true) ∧ (∀ s ∈ l.getLast?, s.linked = false) ∧
  ∀ s ∈ l, s.stop = unset

theorem link_fresh {sets : List (ChSet ν)} (load : ν) (start : Nat) (h : Fresh sets) : Fresh (link sets (freshSet load start)) := by
  rcases List.eq_nil_or_concat sets with rfl | ⟨l, last, rfl⟩
  · exact ⟨by simp [link_nil], by simp [link_nil, freshSet], by simp [link_nil, freshSet]⟩
  · rw [List.concat_eq_append] at h ⊢
    rw [link_snoc]
    split
    · exact h
    · obtain ⟨h1, h2, h3⟩ := h
      simp only [List.dropLast_concat] at h1
      rw [show l ++ [{ last with linked := true }, freshSet load start] =
        (l ++ [{ last with linked := true }]) ++ [freshSet load start] by simp]
      refine ⟨?_, by simp [freshSet], ?_⟩
      · rw [List.dropLast_concat]
        intro s hs
        rcases List.mem_append.1 hs with hs | hs
        · exact h1 s hs
        · rw [List.mem_singleton] at hs; subst hs; rfl
      · intro s hs
        simp only [List.append_assoc, List.cons_append, List.nil_append, List.mem_append, List.mem_cons,
          List.not_mem_nil, or_false] at hs
        rcases hs with hs | rfl | rfl
        · exact h3 s (by simp [hs])
        · exact h3 last (by simp)
        · rfl

theorem cascade_fresh (maxDmx : Nat) (l : List (ChSet ν)) (h : Fresh l) : Fresh (cascade maxDmx l).1 := by
  have key : (cascade maxDmx l).1.map (fun s => (s.linked, s.stop)) = l.map (fun s => (s.linked, s.stop)) := by
    induction l with
    | nil => rfl
    | cons s t ih =>
      have ht : Fresh t := by
        obtain ⟨h1, h2, h3⟩ := h
        refine ⟨?_, ?_, fun x hx => h3 x (by simp [hx])⟩
        · intro x hx
          cases t with
          | nil => simp at hx
          | cons b r => exact h1 x (by simp only [List.dropLast_cons_cons, List.mem_cons]; exact .inr hx)
        · intro x hx
          cases t with
          | nil => simp at hx
          | cons b r => exact h2 x (by rw [List.getLast?_cons_cons]; exact hx)
      rw [cascade]
      simp only [List.map_cons]
      rw [ih ht]
  have tr : ∀ (a b : List (ChSet ν)), a.map (fun s => (s.linked, s.stop)) = b.map (fun s => (s.linked, s.stop)) →
      Fresh b → Fresh a := by
    intro a b hab ⟨h1, h2, h3⟩
    have e1 := congrArg List.dropLast hab
    rw [← List.map_dropLast, ← List.map_dropLast] at e1
    have e2 := congrArg List.getLast? hab
    rw [List.getLast?_map, List.getLast?_map] at e2
    refine ⟨?_, ?_, ?_⟩
    · intro s hs
      have : (s.linked, s.stop) ∈ b.dropLast.map (fun s => (s.linked, s.stop)) := e1 ▸ List.mem_map.2 ⟨s, hs, rfl⟩
      obtain ⟨s', hs', he⟩ := List.mem_map.1 this
      have := congrArg Prod.fst he
      simp only at this
      rw [← this]; exact h1 s' hs'
    · intro s hs
      rw [Option.mem_def] at hs
      rw [hs, Option.map_some] at e2
      cases hb : b.getLast? with
      | none => rw [hb] at e2; simp at e2
      | some s' =>
        rw [hb, Option.map_some] at e2
        have := congrArg Prod.fst (Option.some.inj e2)
        simp only at this
        rw [this]; exact h2 s' hb
    · intro s hs
      have : (s.linked, s.stop) ∈ b.map (fun s => (s.linked, s.stop)) := hab ▸ List.mem_map.2 ⟨s, hs, rfl⟩
      obtain ⟨s', hs', he⟩ := List.mem_map.1 this
      have := congrArg Prod.snd he
      simp only at this
      rw [← this]; exact h3 s' hs'
  exact tr _ _ key h

theorem foldl_fresh (v : Bool) (maxDmx : Nat) (nodes : List (ν × Nat)) : ∀ sets, Fresh sets →
    Fresh (nodes.foldl (readOne v maxDmx) sets) := by
  induction nodes with
  | nil => intro sets h; exact h
  | cons x t ih =>
    intro sets h
    refine ih _ ?_
    unfold readOne
    split
    · split
      · exact h
      · rename_i hr
        unfold repair at hr
        split at hr
        · exact absurd hr (by simp)
        · simp only at hr
          split at hr
          · obtain ⟨rfl, rfl⟩ := by simpa using hr
            exact link_fresh _ _ (cascade_fresh maxDmx sets h)
          · obtain ⟨rfl, rfl⟩ := by simpa using hr
            exact link_fresh _ _ h
    · exact link_fresh _ _ h

/-- The range of a set. -/
def rangeOf (fnEnd : Nat) (s : ChSet ν) : Nat × Nat := (s.start, s.dmxEnd fnEnd)

theorem setEnds_tiles (fnEnd : Nat) : ∀ (l : List (ChSet ν)), Inc l → Fresh l → (∀ s ∈ l, s.start ≤ fnEnd) →
    fnEnd < 18446744073709551616 → ∀ s ∈ l.head?, Tiles s.start fnEnd ((setEnds l).map (rangeOf fnEnd)) := by
  intro l
  induction l with
  | nil => intro _ _ _ _ s hs; simp at hs
  | cons s t ih =>
    intro hi hf hle h64 s' hs'
    obtain rfl : s = s' := by simpa using hs'
    cases t with
    | nil =>
      have h1 := hf.2.1 s (by simp)
      have h2 := hf.2.2 s (by simp)
      have h3 := hle s (by simp)
      have : s.dmxEnd fnEnd = fnEnd := if_pos ⟨h1, h2⟩
      simp only [setEnds, List.map_cons, List.map_nil, rangeOf, this, Tiles]
      exact ⟨trivial, h3, Nat.le_refl _, trivial⟩
    | cons b r =>
      have hb := (List.pairwise_cons.1 hi).1 b (by simp)
      have hbl := hle b (by simp)
      have hl : s.linked = true := hf.1 s (by simp)
      have hr : Fresh (b :: r) := by
        refine ⟨fun x hx => hf.1 x ?_, fun x hx => hf.2.1 x ?_, fun x hx => hf.2.2 x (by simp [hx])⟩
        · rw [List.dropLast_cons_cons]; exact List.mem_cons_of_mem _ hx
        · rw [List.getLast?_cons_cons]; exact hx
      have := ih (List.pairwise_cons.1 hi).2 hr (fun x hx => hle x (by simp [hx])) h64 b (by simp)
      rw [setEnds, List.map_cons]
      have he : (rangeOf fnEnd { s with stop := (b.start + 18446744073709551615) % 18446744073709551616 }) =
          (s.start, b.start - 1) := by
        rw [show (b.start + 18446744073709551615) % 18446744073709551616 = b.start - 1 by omega]
        simp only [rangeOf, ChSet.dmxEnd, hl, Bool.true_eq_false, false_and, if_false]
      rw [he]
      refine ⟨rfl, by simp only; omega, by simp only; omega, ?_⟩
      rw [show (s.start, b.start - 1).2 + 1 = b.start by simp only; omega]
      exact this

/-- C25: each set kept ends right before the next one starts and the last one with the channel function, so the
sets tile the range from the first start to the end of the function. (`fnEnd` is what the function reports as its
end; starts beyond it are the subject of `C25_virtual_range` and of the text conversion.) -/
theorem C25_contiguous (isVirtual : Bool) (maxDmx : Nat) (nodes : List (ν × Nat)) (fnEnd : Nat)
    (h64 : fnEnd < 18446744073709551616) (hle : ∀ s ∈ readSets isVirtual maxDmx nodes, s.start ≤ fnEnd) :
    ∀ s ∈ (readSets isVirtual maxDmx nodes).head?,
      Tiles s.start fnEnd ((readSets isVirtual maxDmx nodes).map (fun s => (s.start, s.dmxEnd fnEnd))) := by
  intro s hs
  have hi := foldl_inc isVirtual maxDmx nodes [] List.Pairwise.nil
  have hf := foldl_fresh isVirtual maxDmx nodes [] ⟨by simp, by simp, by simp⟩
  unfold readSets at hs hle ⊢
  generalize nodes.foldl (readOne isVirtual maxDmx) [] = l at hi hf hle hs
  have hst := map_start (setEnds_starts l)
  have hle' : ∀ s ∈ l, s.start ≤ fnEnd := by
    intro x hx
    have : x.start ∈ (setEnds l).map (·.start) := hst ▸ List.mem_map.2 ⟨x, hx, rfl⟩
    obtain ⟨y, hy, he⟩ := List.mem_map.1 this
    rw [← he]; exact hle y hy
  have hh := congrArg List.head? hst
  rw [List.head?_map, List.head?_map, Option.mem_def.1 hs, Option.map_some] at hh
  cases hl : l.head? with
  | none => rw [hl] at hh; simp at hh
  | some s' =>
    rw [hl, Option.map_some] at hh
    rw [Option.some.inj hh]
    exact setEnds_tiles fnEnd l hi hf hle' h64 s' hl

/-- C25: so every value from the first start on belongs to exactly one set. -/
theorem C25_every_value_once (isVirtual : Bool) (maxDmx : Nat) (nodes : List (ν × Nat)) (fnEnd v : Nat)
    (h64 : fnEnd < 18446744073709551616) (hle : ∀ s ∈ readSets isVirtual maxDmx nodes, s.start ≤ fnEnd)
    (s : ChSet ν) (hs : s ∈ (readSets isVirtual maxDmx nodes).head?) (h1 : s.start ≤ v) (h2 : v ≤ fnEnd) :
    containing v ((readSets isVirtual maxDmx nodes).map (fun s => (s.start, s.dmxEnd fnEnd))) = 1 :=
  tiles_once (C25_contiguous isVirtual maxDmx nodes fnEnd h64 hle s hs) h1 h2

/-! ### Which sets are kept -/

theorem foldl_real (maxDmx : Nat) (nodes : List (ν × Nat)) : ∀ (sets : List (ChSet ν)) (seen : List Nat), Inc sets →
    (∀ y, (∀ s ∈ sets, s.start < y) ↔ (∀ z ∈ seen, z < y)) →
    (nodes.foldl (readOne false maxDmx) sets).map (fun s => (s.load, s.start)) =
      sets.map (fun s => (s.load, s.start)) ++ records seen nodes := by
  induction nodes with
  | nil => intro sets seen _ _; simp [records]
  | cons x t ih =>
    intro sets seen hi hseen
    have hro : readOne false maxDmx sets x = link sets (freshSet x.1 x.2) := rfl
    have hinc := readOne_inc (v := false) (maxDmx := maxDmx) hi x
    rw [List.foldl_cons, records]
    rw [hro] at hinc ⊢
    rcases link_cases sets (freshSet x.1 x.2) hi with ⟨⟨s, hs, hle⟩, e⟩ | ⟨h1, l, e, h2, -⟩
    · have hno : ¬ ∀ y ∈ seen, y < x.2 := by
        rw [← hseen]
        intro hall
        have := hall s hs
        simp only [freshSet] at hle; omega
      rw [if_neg hno, e]
      refine ih sets _ hi ?_
      intro y
      constructor
      · intro hy z hz
        rcases List.mem_cons.1 hz with rfl | hz
        · have := hy s hs; simp only [freshSet] at hle; omega
        · exact (hseen y).1 hy z hz
      · intro hy; exact (hseen y).2 (fun z hz => hy z (by simp [hz]))
    · rw [if_pos ((hseen x.2).1 h1), e]
      rw [e] at hinc
      rw [ih (l ++ [freshSet x.1 x.2]) (x.2 :: seen) hinc ?_]
      · rw [List.map_append, h2]; simp [freshSet]
      · intro y
        have hs := map_start h2
        have hl : (∀ s ∈ l, s.start < y) ↔ (∀ s ∈ sets, s.start < y) := by
          have a1 : (∀ s ∈ l, s.start < y) ↔ ∀ z ∈ l.map (·.start), z < y := by simp
          have a2 : (∀ s ∈ sets, s.start < y) ↔ ∀ z ∈ sets.map (·.start), z < y := by simp
          rw [a1, a2, hs]
        constructor
        · intro hy z hz
          rcases List.mem_cons.1 hz with rfl | hz
          · exact hy (freshSet x.1 x.2) (by simp)
          · exact (hseen y).1 (hl.1 (fun s hs => hy s (by simp [hs]))) z hz
        · intro hy s hs
          rcases List.mem_append.1 hs with hs | hs
          · exact hl.2 ((hseen y).2 (fun z hz => hy z (by simp [hz]))) s hs
          · rw [List.mem_singleton] at hs; subst hs; exact hy x.2 (by simp)

/-- C25, real channels: the sets kept are exactly those whose start exceeds every start before them, with their
starts as in the file. -/
theorem C25_real_kept (maxDmx : Nat) (nodes : List (ν × Nat)) :
    (readSets false maxDmx nodes).map (fun s => (s.load, s.start)) = records [] nodes := by
  rw [readSets, setEnds_starts, foldl_real maxDmx nodes [] [] List.Pairwise.nil (by simp)]
  rfl

/-- Three sets out of order in a real channel: the late one is dropped, the ends are filled in. -/
example : (readSets false 255 [("a", 0), ("b", 100), ("c", 50), ("d", 200)]).map (fun s => (s.load, s.start, s.dmxEnd 255)) =
    [("a", 0, 99), ("b", 100, 199), ("d", 200, 255)] := by decide +kernel

/-! ### Virtual channels -/

theorem bump_spec (starts : List Nat) (maxDmx cur : Nat) :
    let r := bump starts maxDmx cur
    (∀ x, cur ≤ x → x < r.1 → x ∈ starts) ∧ cur ≤ r.1 ∧
      (r.2 = false → r.1 < maxDmx ∧ r.1 ∉ starts) ∧ (r.2 = true → maxDmx ≤ r.1) := by
  induction h : maxDmx - cur using Nat.strongRecOn generalizing cur with
  | ind n ih =>
    intro r
    show (∀ x, cur ≤ x → x < (bump starts maxDmx cur).1 → x ∈ starts) ∧ cur ≤ (bump starts maxDmx cur).1 ∧
      ((bump starts maxDmx cur).2 = false → (bump starts maxDmx cur).1 < maxDmx ∧ (bump starts maxDmx cur).1 ∉ starts) ∧
      ((bump starts maxDmx cur).2 = true → maxDmx ≤ (bump starts maxDmx cur).1)
    rw [bump]
    by_cases hc : cur < maxDmx
    · rw [dif_pos hc]
      by_cases hm : cur ∈ starts
      · rw [if_pos hm]
        obtain ⟨h1, h2, h3, h4⟩ := ih (maxDmx - (cur + 1)) (by omega) (cur + 1) rfl
        refine ⟨?_, by omega, h3, h4⟩
        intro x hx1 hx2
        by_cases hx : x = cur
        · subst hx; exact hm
        · exact h1 x (by omega) hx2
      · rw [if_neg hm]
        exact ⟨by intro x h1 h2; simp only at h2; omega, Nat.le_refl _, fun _ => ⟨hc, hm⟩, by simp⟩
    · rw [dif_neg hc]
      exact ⟨by intro x h1 h2; simp only at h2; omega, Nat.le_refl _, by simp, fun _ => by simp only; omega⟩

theorem repair_some {maxDmx : Nat} {sets : List (ChSet ν)} {start : Nat} (hlen : sets.length < maxDmx) :
    (∃ cur, repair maxDmx sets start = some (sets, cur) ∧ start ≤ cur ∧ cur < maxDmx ∧ cur ∉ sets.map (·.start) ∧
      ∀ x, start ≤ x → x < cur → x ∈ sets.map (·.start)) ∨
    (repair maxDmx sets start = some ((cascade maxDmx sets).1, maxDmx) ∧
      ∀ x, start ≤ x → x < maxDmx → x ∈ sets.map (·.start)) := by
  obtain ⟨h1, h2, h3, h4⟩ := bump_spec (sets.map (·.start)) maxDmx start
  rw [repair, if_neg (by omega)]
  generalize bump (sets.map (·.start)) maxDmx start = r at h1 h2 h3 h4 ⊢
  obtain ⟨cur, b⟩ := r
  simp only at h1 h2 h3 h4 ⊢
  cases b with
  | false =>
    obtain ⟨h5, h6⟩ := h3 rfl
    rw [if_neg (by simp)]
    exact .inl ⟨cur, rfl, h2, h5, h6, h1⟩
  | true =>
    have h5 := h4 rfl
    rw [if_pos ⟨rfl, h5⟩]
    exact .inr ⟨rfl, fun x hx hx' => h1 x hx (by omega)⟩

theorem link_mem {sets : List (ChSet ν)} {new s : ChSet ν} (hi : Inc sets) (h : s ∈ link sets new) :
    s = new ∨ ∃ s' ∈ sets, s'.start = s.start := by
  rcases link_cases sets new hi with ⟨-, e⟩ | ⟨h1, l, e, h2, -⟩
  · rw [e] at h; exact .inr ⟨s, h, rfl⟩
  · rw [e] at h
    rcases List.mem_append.1 h with h | h
    · have : s.start ∈ sets.map (·.start) := map_start h2 ▸ List.mem_map.2 ⟨s, h, rfl⟩
      obtain ⟨s', hs', he⟩ := List.mem_map.1 this
      exact .inr ⟨s', hs', he⟩
    · exact .inl (by simpa using h)

theorem readOne_range {maxDmx : Nat} {sets : List (ChSet ν)} (hi : Inc sets) (h : ∀ s ∈ sets, s.start ≤ maxDmx) (x : ν × Nat) :
    ∀ s ∈ readOne true maxDmx sets x, s.start ≤ maxDmx := by
  intro s hs
  unfold readOne at hs
  rw [if_pos rfl] at hs
  by_cases hlen : sets.length < maxDmx
  · rcases repair_some (start := x.2) hlen with ⟨cur, e, -, hc, -, -⟩ | ⟨e, -⟩
    · rw [e] at hs
      rcases link_mem hi hs with rfl | ⟨s', hs', he⟩
      · simp only [freshSet]; omega
      · rw [← he]; exact h s' hs'
    · rw [e] at hs
      have hf := cascade_facts maxDmx sets hi hlen
      rcases link_mem hf.1 hs with rfl | ⟨s', hs', he⟩
      · simp only [freshSet]; omega
      · rw [← he]; have := (hf.2.1 s' hs').2; omega
  · rw [repair, if_pos (by omega)] at hs
    exact h s hs

theorem foldl_range (maxDmx : Nat) (nodes : List (ν × Nat)) : ∀ sets, Inc sets → (∀ s ∈ sets, s.start ≤ maxDmx) →
    ∀ s ∈ nodes.foldl (readOne true maxDmx) sets, s.start ≤ maxDmx := by
  induction nodes with
  | nil => intro sets _ h; exact h
  | cons x t ih => intro sets hi h; exact ih _ (readOne_inc hi x) (readOne_range hi h x)

theorem mem_starts {l l' : List (ChSet ν)} (h : l.map (·.start) = l'.map (·.start)) {s : ChSet ν} (hs : s ∈ l) :
    ∃ s' ∈ l', s'.start = s.start := by
  have : s.start ∈ l'.map (·.start) := h ▸ List.mem_map.2 ⟨s, hs, rfl⟩
  exact List.mem_map.1 this

/-- C25, virtual channels: whatever starts the file has, also such beyond the channel, no set ends up starting
outside the channel's range. -/
theorem C25_virtual_range (maxDmx : Nat) (nodes : List (ν × Nat)) :
    ∀ s ∈ readSets true maxDmx nodes, s.start ≤ maxDmx := by
  intro s hs
  obtain ⟨s', hs', he⟩ := mem_starts (map_start (setEnds_starts _)) hs
  rw [← he]
  exact foldl_range maxDmx nodes [] List.Pairwise.nil (by simp) s' hs'

theorem cascade_append (maxDmx : Nat) (pre suf : List (ChSet ν)) :
    ∃ pre', (cascade maxDmx (pre ++ suf)).1 = pre' ++ (cascade maxDmx suf).1 := by
  induction pre with
  | nil => exact ⟨[], rfl⟩
  | cons s t ih =>
    obtain ⟨p, hp⟩ := ih
    refine ⟨(cascade maxDmx (s :: t ++ suf)).1.headD s :: p, ?_⟩
    rw [List.cons_append, cascade]
    simp only [List.cons_append, List.headD_cons]
    rw [hp]

/-- If the values from the first start to the maximum are all taken, they still are after making room. -/
theorem cascade_full (maxDmx : Nat) : ∀ (l : List (ChSet ν)) (s : ChSet ν) (t : List (ChSet ν)), l = s :: t → Inc l →
    (∀ x ∈ l, x.start ≤ maxDmx) → s.start < maxDmx ∨ 0 < maxDmx → (∀ x, s.start ≤ x → x < maxDmx → x ∈ l.map (·.start)) →
    (cascade maxDmx l).2 ≤ s.start ∧ (s.start ≤ (cascade maxDmx l).2 + 1) ∧
      ∀ x, (cascade maxDmx l).2 ≤ x → x < maxDmx → x ∈ (cascade maxDmx l).1.map (·.start) := by
  intro l
  induction l with
  | nil => intro s t h; simp at h
  | cons a t ih =>
    intro s t' he hi hle hpos hfull
    obtain ⟨rfl, rfl⟩ := List.cons.inj he
    have ha := hle a (by simp)
    have hlt := (List.pairwise_cons.1 hi).1
    cases t with
    | nil =>
      rw [cascade, cascade]
      simp only [List.map_cons, List.map_nil, List.mem_singleton]
      have : maxDmx ≤ a.start + 1 := by
        by_cases h : maxDmx ≤ a.start + 1
        · exact h
        · have := hfull (a.start + 1) (by omega) (by omega)
          simp at this
      split <;> refine ⟨by omega, by omega, fun x h1 h2 => by omega⟩
    | cons b r =>
      have hb := hlt b (by simp)
      have hbm := hle b (by simp)
      have hb1 : b.start = a.start + 1 := by
        by_cases h : a.start + 1 < maxDmx
        · have := hfull (a.start + 1) (by omega) h
          rcases List.mem_cons.1 this with h' | h'
          · simp only at h'; omega
          · rcases List.mem_cons.1 h' with h'' | h''
            · exact h''.symm
            · obtain ⟨y, hy, hye⟩ := List.mem_map.1 h''
              have := (List.pairwise_cons.1 (List.pairwise_cons.1 hi).2).1 y hy
              omega
        · omega
      have hfull' : ∀ x, b.start ≤ x → x < maxDmx → x ∈ (b :: r).map (·.start) := by
        intro x h1 h2
        have := hfull x (by omega) h2
        rcases List.mem_cons.1 this with h' | h'
        · simp only at h'; omega
        · exact h'
      obtain ⟨i1, i2, i3⟩ := ih b r rfl (List.pairwise_cons.1 hi).2 (fun x hx => hle x (by simp [hx])) (.inr (by omega)) hfull'
      have hlow : (cascade maxDmx (b :: r)).2 = 0 → a.start = 0 := by omega
      rw [cascade]
      generalize cascade maxDmx (b :: r) = c at i1 i2 i3 hlow ⊢
      obtain ⟨c1, n⟩ := c
      simp only at i1 i2 i3 hlow ⊢
      have hst : ∀ x, (if n ≤ a.start then n - 1 else a.start) ≤ x → x < maxDmx →
          x ∈ (if n ≤ a.start then n - 1 else a.start) :: c1.map (·.start) := by
        intro x h1 h2
        by_cases hx : x = (if n ≤ a.start then n - 1 else a.start)
        · rw [← hx]; simp
        · refine List.mem_cons_of_mem _ (i3 x ?_ h2)
          split at h1 <;> split at hx <;> omega
      refine ⟨by split <;> omega, by split <;> omega, ?_⟩
      intro x h1 h2
      exact hst x h1 h2

theorem cascade_keeps_full (maxDmx v : Nat) (l : List (ChSet ν)) (hi : Inc l) (hle : ∀ x ∈ l, x.start ≤ maxDmx)
    (hfull : ∀ x, v ≤ x → x < maxDmx → x ∈ l.map (·.start)) :
    ∀ x, v ≤ x → x < maxDmx → x ∈ (cascade maxDmx l).1.map (·.start) := by
  intro x h1 h2
  obtain ⟨s, hs, hse⟩ := List.mem_map.1 (hfull v (Nat.le_refl _) (by omega))
  obtain ⟨pre, suf, rfl⟩ := List.append_of_mem hs
  have hi' := List.pairwise_append.1 hi
  have hfull' : ∀ x, s.start ≤ x → x < maxDmx → x ∈ (s :: suf).map (·.start) := by
    intro y hy1 hy2
    have := hfull y (by omega) hy2
    rw [List.map_append, List.mem_append] at this
    rcases this with h | h
    · obtain ⟨z, hz, hze⟩ := List.mem_map.1 h
      have := hi'.2.2 z hz s (by simp)
      omega
    · exact h
  obtain ⟨p, hp⟩ := cascade_append maxDmx pre (s :: suf)
  have := cascade_full maxDmx (s :: suf) s suf rfl hi'.2.1 (fun x hx => hle x (by simp at hx ⊢; exact .inr hx)) (.inr (by omega)) hfull'
  rw [hp, List.map_append, List.mem_append]
  exact .inr (this.2.2 x (by omega) h2)

theorem link_append {sets : List (ChSet ν)} {new : ChSet ν} (hi : Inc sets) (h : ∀ s ∈ sets, s.start < new.start) :
    (link sets new).map (fun s => (s.load, s.start)) = sets.map (fun s => (s.load, s.start)) ++ [(new.load, new.start)] := by
  rcases link_cases sets new hi with ⟨⟨s, hs, hle⟩, -⟩ | ⟨-, l, e, h2, -⟩
  · have := h s hs; omega
  · rw [e, List.map_append, h2]; rfl

theorem foldl_virtual (maxDmx : Nat) (nodes : List (ν × Nat)) : ∀ (sets : List (ChSet ν)) (u : Nat), Inc sets →
    (∀ s ∈ sets, s.start ≤ maxDmx) →
    (∀ x, u ≤ x → (∃ s ∈ sets, x ≤ s.start) → x ∈ sets.map (·.start)) →
    (∀ y ∈ nodes, u ≤ y.2) → nodes.Pairwise (fun a b => a.2 ≤ b.2) → sets.length + nodes.length ≤ maxDmx →
    (nodes.foldl (readOne true maxDmx) sets).map (·.load) = sets.map (·.load) ++ nodes.map (·.1) := by
  induction nodes with
  | nil => intro sets u _ _ _ _ _ _; simp
  | cons x t ih =>
    intro sets u hi hle hc hu hp hlen
    rw [List.length_cons] at hlen
    have hux := hu x (by simp)
    have hp' := List.pairwise_cons.1 hp
    have hinc := readOne_inc (v := true) (maxDmx := maxDmx) hi x
    have hrange := readOne_range hi hle x
    rw [List.foldl_cons]
    have key : ∀ (base : List (ChSet ν)) (cur : Nat), readOne true maxDmx sets x = link base (freshSet x.1 cur) → Inc base →
        base.map (·.load) = sets.map (·.load) → (∀ s ∈ base, s.start < cur) →
        (∀ y, x.2 ≤ y → y < cur → y ∈ base.map (·.start)) →
        (t.foldl (readOne true maxDmx) (readOne true maxDmx sets x)).map (·.load) =
          sets.map (·.load) ++ (x :: t).map (·.1) := by
      intro base cur e hb hl hlt hfull
      have hla := link_append (new := freshSet x.1 cur) hb hlt
      rw [← e] at hla
      have hloads : (readOne true maxDmx sets x).map (·.load) = sets.map (·.load) ++ [x.1] := by
        have := congrArg (List.map Prod.fst) hla
        rw [List.map_map, List.map_append, List.map_map] at this
        rw [← hl]; exact this
      have hstarts : (readOne true maxDmx sets x).map (·.start) = base.map (·.start) ++ [cur] := by
        have := congrArg (List.map Prod.snd) hla
        rw [List.map_map, List.map_append, List.map_map] at this
        exact this
      have hsz : (readOne true maxDmx sets x).length = sets.length + 1 := by
        have := congrArg List.length hloads
        simpa using this
      rw [ih _ x.2 hinc hrange ?_ hp'.1 hp'.2 (by omega), hloads]
      · simp
      · intro y hy ⟨s, hs, hys⟩
        rw [hstarts, List.mem_append, List.mem_singleton]
        have hscur : s.start ≤ cur := by
          have : s.start ∈ (readOne true maxDmx sets x).map (·.start) := List.mem_map.2 ⟨s, hs, rfl⟩
          rw [hstarts, List.mem_append, List.mem_singleton] at this
          rcases this with h | h
          · obtain ⟨z, hz, hze⟩ := List.mem_map.1 h
            have := hlt z hz; omega
          · omega
        by_cases hyc : y < cur
        · exact .inl (hfull y hy hyc)
        · exact .inr (by omega)
    rcases repair_some (start := x.2) (show sets.length < maxDmx by omega) with ⟨cur, e, h1, h2, h3, h4⟩ | ⟨e, h4⟩
    · refine key sets cur (by rw [readOne, if_pos rfl, e]) hi rfl ?_ h4
      intro s hs
      by_cases h : s.start < cur
      · exact h
      · exact absurd (hc cur (by omega) ⟨s, hs, by omega⟩) h3
    · have hf := cascade_facts maxDmx sets hi (by omega)
      refine key (cascade maxDmx sets).1 maxDmx (by rw [readOne, if_pos rfl, e]) hf.1 hf.2.2.2.2 (fun s hs => (hf.2.1 s hs).2) ?_
      exact cascade_keeps_full maxDmx x.2 sets hi hle h4

/-- C25, virtual channels: when the starts in the file do not decrease (but may repeat or lie beyond the channel) and
there are not more sets than the maximum, no set is lost and the order is kept. -/
theorem C25_virtual_none_lost (maxDmx : Nat) (nodes : List (ν × Nat)) (hs : nodes.Pairwise (fun a b => a.2 ≤ b.2))
    (hlen : nodes.length ≤ maxDmx) : (readSets true maxDmx nodes).map (·.load) = nodes.map (·.1) := by
  have h := foldl_virtual maxDmx nodes [] 0 List.Pairwise.nil (by simp) (by simp) (by simp) hs (by simpa using hlen)
  have e := congrArg (List.map Prod.fst) (setEnds_starts (nodes.foldl (readOne true maxDmx) []))
  rw [List.map_map, List.map_map] at e
  rw [readSets]
  exact e.trans h

/-- Starts squeezed together by an old 32 bit file: all four sets survive, the crowded ones move down. -/
example : (readSets true 65535 [("a", 0), ("b", 65534), ("c", 65535), ("d", 65535), ("e", 70000)]).map
      (fun s => (s.load, s.start, s.dmxEnd 65535)) =
    [("a", 0, 65531), ("b", 65532, 65532), ("c", 65533, 65533), ("d", 65534, 65534), ("e", 65535, 65535)] := by decide +kernel

/-! ## C27 -/

theorem fnRanges_tiles (maxDmx : Nat) (after : Option Nat) : ∀ (s : Nat) (t : List Nat), (s :: t).Pairwise (· < ·) →
    (∀ x ∈ s :: t, x ≤ maxDmx) → (∀ n ∈ after, ∀ x ∈ s :: t, n ≤ x) →
    Tiles s maxDmx (fnRanges maxDmx after (s :: t)) := by
  intro s t
  induction t generalizing s with
  | nil =>
    intro _ hle ha
    have hs := hle s (by simp)
    have : fnEndAddress maxDmx s ([].head?.or after) = maxDmx := by
      cases after with
      | none => rfl
      | some n => exact if_pos (ha n rfl s (by simp))
    rw [fnRanges, fnRanges, this]
    exact ⟨rfl, hs, Nat.le_refl _, rfl⟩
  | cons b r ih =>
    intro hi hle ha
    have hb := (List.pairwise_cons.1 hi).1 b (by simp)
    have hbm := hle b (by simp)
    have := ih b (List.pairwise_cons.1 hi).2 (fun x hx => hle x (by simp at hx ⊢; exact .inr hx))
      (fun n hn x hx => ha n hn x (by simp at hx ⊢; exact .inr hx))
    have he : fnEndAddress maxDmx s ((b :: r).head?.or after) = b - 1 := if_neg (show ¬ b ≤ s by omega)
    rw [fnRanges, he]
    refine ⟨rfl, by simp only; omega, by simp only; omega, ?_⟩
    rw [show (s, b - 1).2 + 1 = b by simp only; omega]
    exact this

theorem channelRanges_mem (maxDmx : Nat) : ∀ (logicals : List (List Nat)), ∀ r ∈ channelRanges maxDmx logicals,
    ∃ l ∈ logicals, ∃ after, (∀ n ∈ after, n = 0) ∧ r = fnRanges maxDmx after (readStarts l) := by
  intro logicals
  induction logicals with
  | nil => intro r hr; simp [channelRanges] at hr
  | cons l t ih =>
    intro r hr
    rw [channelRanges] at hr
    rcases List.mem_cons.1 hr with rfl | hr
    · refine ⟨l, by simp, _, ?_, rfl⟩
      intro n hn
      cases t with
      | nil => simp at hn
      | cons b c =>
        cases b with
        | nil => simp [readStarts] at hn
        | cons x y => simpa [readStarts] using hn.symm
    · obtain ⟨l', hl', h⟩ := ih r hr
      exact ⟨l', by simp [hl'], h⟩

/-- C27: in a channel read from a file, for every logical channel whose function starts increase strictly from the
second on (the first one is read as 0) and stay inside the channel, the ranges reported are in order and cover
0 … max without gap or overlap, also when further logical channels follow. -/
theorem C27_partition (maxDmx : Nat) (logicals : List (List Nat)) (i : Nat) (first : Nat) (rest : List Nat)
    (hl : logicals[i]? = some (first :: rest)) (hinc : (0 :: rest).Pairwise (· < ·)) (hle : ∀ x ∈ rest, x ≤ maxDmx) :
    ∃ ranges, (channelRanges maxDmx logicals)[i]? = some ranges ∧ ranges.length = (first :: rest).length ∧
      ranges.map Prod.fst = 0 :: rest ∧ Tiles 0 maxDmx ranges := by
  have hlen : ∀ after l, (fnRanges maxDmx after l).length = l.length := by
    intro after l
    induction l with
    | nil => rfl
    | cons a t ih => rw [fnRanges, List.length_cons, ih, List.length_cons]
  have hst : ∀ after l, (fnRanges maxDmx after l).map Prod.fst = l := by
    intro after l
    induction l with
    | nil => rfl
    | cons a t ih => rw [fnRanges, List.map_cons, ih]
  have hat : ∀ (L : List (List Nat)) (i : Nat), L[i]? = some (first :: rest) →
      ∃ after, (∀ n ∈ after, n = 0) ∧ (channelRanges maxDmx L)[i]? = some (fnRanges maxDmx after (0 :: rest)) := by
    intro L
    induction L with
    | nil => intro i h; simp at h
    | cons l t ih =>
      intro i h
      rw [channelRanges]
      cases i with
      | succ j => exact ih j (by simpa using h)
      | zero =>
        obtain rfl : l = first :: rest := by simpa using h
        refine ⟨_, ?_, rfl⟩
        intro n hn
        cases t with
        | nil => simp at hn
        | cons b c =>
          cases b with
          | nil => simp [readStarts] at hn
          | cons x y => simpa [readStarts] using hn.symm
  obtain ⟨after, ha, he⟩ := hat logicals i hl
  refine ⟨_, he, by rw [hlen]; rfl, hst _ _, ?_⟩
  refine fnRanges_tiles maxDmx after 0 rest hinc ?_ ?_
  · intro x hx
    rcases List.mem_cons.1 hx with rfl | hx
    · omega
    · exact hle x hx
  · intro n hn x _
    rw [ha n hn]; omega

/-- C27: so every DMX value belongs to exactly one of the functions. -/
theorem C27_every_value_once (maxDmx : Nat) (logicals : List (List Nat)) (i : Nat) (first : Nat) (rest : List Nat)
    (hl : logicals[i]? = some (first :: rest)) (hinc : (0 :: rest).Pairwise (· < ·)) (hle : ∀ x ∈ rest, x ≤ maxDmx)
    (v : Nat) (hv : v ≤ maxDmx) :
    ∃ ranges, (channelRanges maxDmx logicals)[i]? = some ranges ∧ containing v ranges = 1 := by
  obtain ⟨r, h1, -, -, h2⟩ := C27_partition maxDmx logicals i first rest hl hinc hle
  exact ⟨r, h1, tiles_once h2 (Nat.zero_le _) hv⟩

/-- C27 for a logical channel built through the API (GDTFManager.cpp:5829-5839 links each function with the one added
before it; nothing follows the last one): starts increasing from 0 give ranges that tile 0 … max. -/
theorem C27_built_partition (maxDmx : Nat) (rest : List Nat) (hinc : (0 :: rest).Pairwise (· < ·))
    (hle : ∀ x ∈ rest, x ≤ maxDmx) : Tiles 0 maxDmx (fnRanges maxDmx none (0 :: rest)) := by
  refine fnRanges_tiles maxDmx none 0 rest hinc ?_ (by simp)
  intro x hx
  rcases List.mem_cons.1 hx with rfl | hx
  · omega
  · exact hle x hx

/-- Two logical channels, the first with three functions. -/
example : channelRanges 255 [[0, 100, 200], [7, 30]] = [[(0, 99), (100, 199), (200, 255)], [(0, 29), (30, 255)]] := by
  decide +kernel

/-- C27 does not hold for functions with equal starts: of two functions with the same start followed by a later one,
the first reports the maximum as its end although the source says such functions are stepped over. -/
theorem C27_equal_starts_violated (maxDmx b : Nat) (hb : 0 < b) (hm : b ≤ maxDmx) :
    channelRanges maxDmx [[0, 0, b]] = [[(0, maxDmx), (0, b - 1), (b, maxDmx)]] ∧
      containing b [(0, maxDmx), (0, b - 1), (b, maxDmx)] = 2 := by
  constructor
  · have : fnEndAddress maxDmx 0 (some b) = b - 1 := if_neg (show ¬ b ≤ 0 by omega)
    show [[(0, maxDmx), (0, fnEndAddress maxDmx 0 (some b)), (b, maxDmx)]] = _
    rw [this]
  · simp only [containing, List.filter_cons, List.filter_nil]
    rw [if_pos (by simp; omega), if_neg (by simp; omega), if_pos (by simp; omega)]
    rfl

end Verif.Chan
