import Verif.Check.Spec

/-!
# C33: channel functions that can be active at the same time
-/

namespace Verif.Check

open Spec

theorem pair_together (own : Nat) (channelOf : Nat → Nat) (f g : MFn) (hf : Usable own channelOf f) (hg : Usable own channelOf g)
    (ho : dmxOverlap f g = true) (e : MmError) (he : checkPair f g = some e) : Together own channelOf f g := by
  unfold dmxOverlap at ho
  rw [decide_eq_true_iff] at ho
  have hr := hf.range
  have hr' := hg.range
  unfold checkPair at he
  by_cases h0 : (f.mmChannel.isNone && f.mmFunction.isNone) = true
  · rw [Bool.and_eq_true, Option.isNone_iff_eq_none, Option.isNone_iff_eq_none] at h0
    have hm := hg.mmRange
    refine ⟨fun x => if x = own then max f.first g.first else g.mmFirst, ⟨?_, ?_, ?_⟩, ⟨?_, ?_, ?_⟩⟩
    · simp only [if_true]; omega
    · intro c hc; rw [h0.1] at hc; cases hc
    · intro c hc; rw [h0.2] at hc; cases hc
    · simp only [if_true]; omega
    · intro c hc
      simp only [if_neg (hg.channel c hc)]
      omega
    · intro c hc
      simp only [if_neg (hg.function c hc)]
      omega
  · rw [if_neg h0] at he
    split at he
    · rename_i hsame
      split at he
      · rename_i hmm
        have hm := hf.mmRange
        have hm' := hg.mmRange
        refine ⟨fun x => if x = own then max f.first g.first else max f.mmFirst g.mmFirst, ⟨?_, ?_, ?_⟩, ⟨?_, ?_, ?_⟩⟩
        · simp only [if_true]; omega
        · intro c hc; simp only [if_neg (hf.channel c hc)]; omega
        · intro c hc; simp only [if_neg (hf.function c hc)]; omega
        · simp only [if_true]; omega
        · intro c hc; simp only [if_neg (hg.channel c hc)]; omega
        · intro c hc; simp only [if_neg (hg.function c hc)]; omega
      · cases he
    · cases he

theorem inner_some (f : MFn) (rest : List MFn) (e : MmError) (h : checkInner f rest = some e) :
    ∃ g ∈ rest, dmxOverlap f g = true ∧ checkPair f g = some e := by
  induction rest with
  | nil => cases h
  | cons g rest ih =>
    rw [checkInner] at h
    by_cases ho : dmxOverlap f g = true
    · rw [if_pos ho] at h
      exact ⟨g, List.mem_cons_self, ho, h⟩
    · rw [if_neg ho] at h
      obtain ⟨g', hg', h1, h2⟩ := ih h
      exact ⟨g', List.mem_cons_of_mem _ hg', h1, h2⟩

/-- C33 (partial, one direction): whenever an error is reported, there are two functions of the logical channel that can be
active together. -/
theorem C33_reported_partial (own : Nat) (channelOf : Nat → Nat) (fs : List MFn) (hu : ∀ f ∈ fs, Usable own channelOf f)
    (h : checkMasters fs ≠ []) :
    ∃ (i j : Nat) (f g : MFn), i < j ∧ fs[i]? = some f ∧ fs[j]? = some g ∧ Together own channelOf f g := by
  induction fs with
  | nil => exact absurd rfl h
  | cons f rest ih =>
    rw [checkMasters] at h
    cases hc : checkInner f rest with
    | some e =>
      obtain ⟨g, hg, ho, hp⟩ := inner_some f rest e hc
      obtain ⟨j, hj⟩ := List.getElem?_of_mem hg
      exact ⟨0, j + 1, f, g, by omega, rfl, by simpa using hj,
        pair_together own channelOf f g (hu f List.mem_cons_self) (hu g (List.mem_cons_of_mem _ hg)) ho e hp⟩
    | none =>
      rw [hc] at h
      obtain ⟨i, j, f', g, hij, hi, hj, ht⟩ := ih (fun x hx => hu x (List.mem_cons_of_mem _ hx)) (by simpa using h)
      exact ⟨i + 1, j + 1, f', g, by omega, by simpa using hi, by simpa using hj, ht⟩

theorem together_overlap {own : Nat} {channelOf : Nat → Nat} {f g : MFn} (h : Together own channelOf f g) :
    dmxOverlap f g = true := by
  obtain ⟨dmx, ⟨⟨h1, h2⟩, _⟩, ⟨⟨h3, h4⟩, _⟩⟩ := h
  unfold dmxOverlap
  rw [decide_eq_true_iff]
  omega

theorem together_pair {own : Nat} {channelOf : Nat → Nat} {f g : MFn} (h : Together own channelOf f g)
    (hc : f.mmChannel = g.mmChannel) (hf : f.mmFunction = g.mmFunction) : (checkPair f g).isSome = true := by
  obtain ⟨dmx, ⟨_, h1, h2⟩, ⟨_, h3, h4⟩⟩ := h
  unfold checkPair
  by_cases h0 : (f.mmChannel.isNone && f.mmFunction.isNone) = true
  · rw [if_pos h0]; rfl
  · rw [if_neg h0]
    have hs : ((f.mmChannel.isSome && decide (f.mmChannel = g.mmChannel)) ||
        (f.mmFunction.isSome && decide (f.mmFunction = g.mmFunction))) = true := by
      rw [decide_eq_true hc, decide_eq_true hf, Bool.and_true, Bool.and_true]
      revert h0
      cases f.mmChannel <;> cases f.mmFunction <;> simp
    rw [if_pos hs]
    have : f.mmFirst ≤ g.mmLast ∧ g.mmFirst ≤ f.mmLast := by
      cases hx : f.mmChannel with
      | some c =>
        have a := h1 c hx
        have b := h3 c (hc ▸ hx)
        omega
      | none =>
        cases hy : f.mmFunction with
        | some c =>
          have a := h2 c hy
          have b := h4 c (hf ▸ hy)
          omega
        | none => rw [hx, hy] at h0; exact absurd rfl h0
    rw [if_pos this]
    rfl

theorem inner_of (f : MFn) (rest : List MFn) (j : Nat) (g : MFn) (hj : rest[j]? = some g) (ho : dmxOverlap f g = true)
    (hp : (checkPair f g).isSome = true) (hone : ∀ (i : Nat) (x : MFn), i < j → rest[i]? = some x → dmxOverlap f x = false) :
    (checkInner f rest).isSome = true := by
  induction rest generalizing j with
  | nil => cases hj
  | cons x rest ih =>
    rw [checkInner]
    cases j with
    | zero =>
      simp only [List.getElem?_cons_zero, Option.some.injEq] at hj
      subst hj
      rw [if_pos ho]
      exact hp
    | succ j =>
      have := hone 0 x (by omega) rfl
      rw [if_neg (by rw [this]; decide)]
      exact ih j (by simpa using hj) (fun i y hi hy => hone (i + 1) y (by omega) (by simpa using hy))

/-- C33 (partial): if all functions of the logical channel have the same mode master (or none), and every function overlaps with
at most one later function, then an error is reported exactly when two of the functions can be active together. What is missing:
other logical channels, see below. -/
theorem C33_exact_partial (own : Nat) (channelOf : Nat → Nat) (fs : List MFn) (hu : ∀ f ∈ fs, Usable own channelOf f)
    (hs : ∀ f ∈ fs, ∀ g ∈ fs, f.mmChannel = g.mmChannel ∧ f.mmFunction = g.mmFunction)
    (hone : ∀ (i j k : Nat) (f g g' : MFn), i < j → j < k → fs[i]? = some f → fs[j]? = some g → fs[k]? = some g' →
      ¬ (f.first ≤ g.last ∧ g.first ≤ f.last ∧ f.first ≤ g'.last ∧ g'.first ≤ f.last)) :
    checkMasters fs ≠ [] ↔
      ∃ (i j : Nat) (f g : MFn), i < j ∧ fs[i]? = some f ∧ fs[j]? = some g ∧ Together own channelOf f g := by
  refine ⟨C33_reported_partial own channelOf fs hu, ?_⟩
  induction fs with
  | nil => rintro ⟨i, j, f, g, _, h, _⟩; cases h
  | cons x rest ih =>
    rintro ⟨i, j, f, g, hij, hi, hj, ht⟩
    rw [checkMasters]
    cases i with
    | zero =>
      simp only [List.getElem?_cons_zero, Option.some.injEq] at hi
      subst hi
      cases j with
      | zero => omega
      | succ j =>
        have hj' : rest[j]? = some g := by simpa using hj
        have hm := hs x List.mem_cons_self g (List.mem_cons_of_mem _ (List.mem_of_getElem? hj'))
        have ho := together_overlap ht
        have := inner_of x rest j g hj' ho (together_pair ht hm.1 hm.2) (fun k y hk hy => by
          cases hb : dmxOverlap x y with
          | false => rfl
          | true =>
            unfold dmxOverlap at hb ho
            rw [decide_eq_true_iff] at hb ho
            exact absurd ⟨hb.1, hb.2, ho.1, ho.2⟩ (hone 0 (k + 1) (j + 1) x y g (by omega) (by omega) rfl (by simpa using hy) hj))
        obtain ⟨e, he⟩ := Option.isSome_iff_exists.1 this
        rw [he]
        simp
    | succ i =>
      cases j with
      | zero => omega
      | succ j =>
        have := ih (fun f hf => hu f (List.mem_cons_of_mem _ hf))
          (fun f hf g hg => hs f (List.mem_cons_of_mem _ hf) g (List.mem_cons_of_mem _ hg))
          (fun a b c f g g' hab hbc hf hg hg' => hone (a + 1) (b + 1) (c + 1) f g g' (by omega) (by omega) (by simpa using hf)
            (by simpa using hg) (by simpa using hg'))
          ⟨i, j, f, g, by omega, by simpa using hi, by simpa using hj, ht⟩
        intro h
        rw [List.append_eq_nil_iff] at h
        exact this h.2

/-- Functions on one channel, three ranges, all depending on channel 7. -/
def demoFns : List MFn := [⟨0, 99, some 7, none, 0, 9⟩, ⟨100, 199, some 7, none, 0, 9⟩, ⟨150, 255, some 7, none, 5, 20⟩]

example : (∀ f ∈ demoFns, Usable 1 id f) ∧ checkMasters demoFns = [.masterOverlap] := by
  refine ⟨?_, by decide⟩
  intro f hf
  simp only [demoFns, List.mem_cons, List.not_mem_nil, or_false] at hf
  rcases hf with rfl | rfl | rfl <;> exact ⟨by decide, by decide, Or.inr rfl, by simp, by simp⟩

example : ∀ (i j k : Nat) (f g g' : MFn), i < j → j < k → demoFns[i]? = some f → demoFns[j]? = some g → demoFns[k]? = some g' →
    ¬ (f.first ≤ g.last ∧ g.first ≤ f.last ∧ f.first ≤ g'.last ∧ g'.first ≤ f.last) := by
  intro i j k f g g' hij hjk hi hj hk
  have hk3 : k < 3 := (List.getElem?_eq_some_iff.1 hk).1
  have : i = 0 ∧ j = 1 ∧ k = 2 := by omega
  obtain ⟨rfl, rfl, rfl⟩ := this
  simp only [demoFns, List.getElem?_cons_succ, List.getElem?_cons_zero, Option.some.injEq] at hi hj hk
  subst hi hj hk
  decide

/-- C33 (violated): only the first later function with an overlapping range is examined. Three functions over the whole range
with the mode master ranges 0-9, 10-19 and 0-9 are accepted, although the first and the third are always active together. -/
theorem C33_first_overlap_only_violated :
    let f : MFn := ⟨0, 255, some 7, none, 0, 9⟩
    let g : MFn := ⟨0, 255, some 7, none, 10, 19⟩
    checkMasters [f, g, f] = [] ∧ Together 1 id f f ∧ (Usable 1 id f ∧ Usable 1 id g) := by
  refine ⟨by decide, ⟨fun _ => 0, ?_⟩, ?_⟩
  · refine ⟨⟨by simp, ?_, ?_⟩, ⟨by simp, ?_, ?_⟩⟩ <;> intros <;> simp_all
  · exact ⟨⟨by decide, by decide, Or.inr rfl, by simp, by simp⟩, ⟨by decide, by decide, Or.inr rfl, by simp, by simp⟩⟩

/-- C33 (violated): the second function of a pair may have no mode master at all. -/
theorem C33_second_without_master_violated :
    let f : MFn := ⟨0, 255, some 7, none, 0, 9⟩
    let g : MFn := ⟨0, 255, none, none, 0, 0⟩
    checkMasters [f, g] = [] ∧ checkMasters [g, f] = [.missingMaster] ∧ Together 1 id f g ∧ (Usable 1 id f ∧ Usable 1 id g) := by
  refine ⟨by decide, by decide, ⟨fun _ => 0, ?_⟩, ?_⟩
  · refine ⟨⟨by simp, ?_, ?_⟩, ⟨by simp, ?_, ?_⟩⟩ <;> intros <;> simp_all
  · exact ⟨⟨by decide, by decide, Or.inr rfl, by simp, by simp⟩, ⟨by decide, by decide, Or.inr rfl, by simp, by simp⟩⟩

/-- C33 (violated): functions with different mode masters are accepted, although both masters can be in range. -/
theorem C33_different_masters_violated :
    let f : MFn := ⟨0, 255, some 7, none, 0, 9⟩
    let g : MFn := ⟨0, 255, some 8, none, 0, 9⟩
    checkMasters [f, g] = [] ∧ Together 1 id f g ∧ (Usable 1 id f ∧ Usable 1 id g) := by
  refine ⟨by decide, ⟨fun _ => 0, ?_⟩, ?_⟩
  · refine ⟨⟨by simp, ?_, ?_⟩, ⟨by simp, ?_, ?_⟩⟩ <;> intros <;> simp_all
  · exact ⟨⟨by decide, by decide, Or.inr rfl, by simp, by simp⟩, ⟨by decide, by decide, Or.inr rfl, by simp, by simp⟩⟩

end Verif.Check
