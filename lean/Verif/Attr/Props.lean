import Verif.Attr.Spec

/-!
# C97: a feature or an activation group lists the attributes that have it
-/

namespace Verif.Attr

open Spec

/-- Count and index give the list. -/
theorem listed_eq (s : State) (t : Nat) : listed s t = (s.linked t).map some := by
  apply List.ext_getElem?
  intro i
  unfold listed count attributeAt
  rw [List.getElem?_map, List.getElem?_map]
  by_cases h : i < (s.linked t).length
  · rw [List.getElem?_range h]
    simp [h]
  · rw [List.getElem?_eq_none (by simpa using h), List.getElem?_eq_none (by simpa using h)]
    rfl

theorem right_iff (s : State) : Right s ↔ ∀ t, (s.linked t).Nodup ∧ ∀ a, a ∈ s.linked t ↔ s.target a = some t := by
  unfold Right
  apply forall_congr'
  intro t
  rw [listed_eq]
  apply and_congr
  · unfold List.Nodup
    rw [List.pairwise_map]
    simp
  · apply forall_congr'
    intro a
    simp

theorem fresh_right : Right fresh := by
  rw [right_iff]
  intro t
  simp [fresh]

/-- Setting an attribute that has no target keeps the lists right. -/
theorem set_right {s : State} (h : Right s) (a t : Nat) (hn : s.target a = none) : Right (set s a t) := by
  rw [right_iff] at h ⊢
  intro u
  have hnot : ∀ v, a ∉ s.linked v := by
    intro v hv
    rw [(h v).2, hn] at hv
    cases hv
  simp only [set]
  by_cases hu : u = t
  · subst hu
    simp only [if_true]
    refine ⟨?_, ?_⟩
    · rw [List.nodup_append]
      refine ⟨(h u).1, by simp, ?_⟩
      intro x hx y hy
      rw [List.mem_singleton] at hy
      subst hy
      rintro rfl
      exact hnot u hx
    · intro b
      by_cases hb : b = a
      · subst hb; simp
      · simp [hb, (h u).2 b]
  · rw [if_neg hu]
    refine ⟨(h u).1, ?_⟩
    intro b
    by_cases hb : b = a
    · subst hb
      simp only [if_true, Option.some.injEq]
      exact ⟨fun e => absurd e (hnot u), fun e => absurd e.symm hu⟩
    · rw [if_neg hb]
      exact (h u).2 b

theorem run_right : ∀ (h : History) (s : State), Right s → Once h → (∀ c ∈ h, c.2.isSome = true → s.target c.1 = none) → Right (run s h) := by
  intro h
  induction h with
  | nil => intro s hs _ _; exact hs
  | cons c h ih =>
    intro s hs ho hn
    obtain ⟨a, t⟩ := c
    cases t with
    | none =>
      show Right (run s h)
      apply ih s hs
      · simpa [Once] using ho
      · intro c hc
        exact hn c (by simp [hc])
    | some t =>
      show Right (run (set s a t) h)
      have ho' : a ∉ (h.filter (fun c => c.2.isSome)).map (·.1) ∧ Once h := by
        simpa [Once] using ho
      apply ih _ (set_right hs a t (hn (a, some t) (by simp) rfl)) ho'.2
      intro c hc hcs
      have hne : c.1 ≠ a := by
        rintro rfl
        apply ho'.1
        exact List.mem_map.2 ⟨c, List.mem_filter.2 ⟨hc, hcs⟩, rfl⟩
      simp only [set]
      rw [if_neg hne]
      exact hn c (by simp [hc]) hcs

/-- **C97, a fixture that is built.** Whatever a user does, as long as no attribute is given a target twice: every feature and every activation group lists
exactly the attributes that have it, each one once.  Null pointers change nothing. -/
theorem C97_built_partial (h : History) (ho : Once h) : Right (run fresh h) :=
  run_right h fresh fresh_right ho (fun _ _ _ => rfl)

/-- The last thing asked for is what an attribute has, whatever happened before. -/
theorem C97_target (h : History) (s : State) (a t : Nat) : (run s (h ++ [(a, some t)])).target a = some t := by
  simp [run, List.foldl_append, apiSet, set]

/-- What reading does, as a history. -/
theorem resolve_run (found : Nat → Option Nat) : ∀ (l : List Nat) (s : State), resolve found s l = run s (l.map (fun a => (a, found a))) := by
  intro l
  induction l with
  | nil => intro s; rfl
  | cons a l ih =>
    intro s
    rw [resolve, ih]
    cases h : found a <;> simp [run, h, apiSet]

theorem once_map (found : Nat → Option Nat) (l : List Nat) (h : l.Nodup) : Once (l.map (fun a => (a, found a))) := by
  unfold Once
  have h1 : ((l.map (fun a => (a, found a))).filter (fun c => c.2.isSome)).map (·.1) = l.filter (fun a => (found a).isSome) := by
    rw [List.filter_map, List.map_map]
    simp [Function.comp_def]
  rw [h1]
  exact h.filter _

theorem resolve_linked (found : Nat → Option Nat) (t : Nat) : ∀ (l : List Nat) (s : State),
    (resolve found s l).linked t = s.linked t ++ l.filter (fun a => decide (found a = some t)) := by
  intro l
  induction l with
  | nil => intro s; simp [resolve]
  | cons a l ih =>
    intro s
    rw [resolve, ih]
    cases h : found a with
    | none => simp [h]
    | some u =>
      by_cases hu : u = t
      · subst hu; simp [h, set]
      · simp [h, set, hu, Ne.symm hu]

/-- **C97, a fixture that is read.** Every feature and every activation group lists exactly the attributes whose reference names it, each one once, in the
order of the file. -/
theorem C97_read (found : Nat → Option Nat) (l : List Nat) (h : l.Nodup) :
    Right (resolve found fresh l) ∧ (∀ t, listed (resolve found fresh l) t = (l.filter (fun a => decide (found a = some t))).map some) := by
  refine ⟨?_, ?_⟩
  · rw [resolve_run]
    exact C97_built_partial _ (once_map found l h)
  · intro t
    rw [listed_eq, resolve_linked]
    simp [fresh]

/-- **C97, a fixture that is read and extended.** Attributes that were read without a reference, or that are new, can be given a target. -/
theorem C97_extended_partial (found : Nat → Option Nat) (l : List Nat) (h : l.Nodup) (c : History) (ho : Once c)
    (hn : ∀ x ∈ c, x.2.isSome = true → (x.1 ∉ l ∨ found x.1 = none)) : Right (run (resolve found fresh l) c) := by
  apply run_right c _ (C97_read found l h).1 ho
  intro x hx hxs
  have hr := (right_iff _).1 (C97_read found l h).1
  cases ht : (resolve found fresh l).target x.1 with
  | none => rfl
  | some t =>
    have hm := ((hr t).2 x.1).2 ht
    rw [resolve_linked] at hm
    simp only [fresh, List.nil_append, List.mem_filter, decide_eq_true_eq] at hm
    rcases hn x hx hxs with h1 | h1
    · exact absurd hm.1 h1
    · rw [h1] at hm
      cases hm.2

/-! ### The hypotheses are met -/

/-- Two attributes with one feature, a third one with another, and a null pointer. -/
example : Right (run fresh [(1, some 7), (2, none), (2, some 8), (3, some 7)]) ∧
    listed (run fresh [(1, some 7), (2, none), (2, some 8), (3, some 7)]) 7 = [some 1, some 3] :=
  ⟨C97_built_partial _ (by unfold Once; decide), by decide⟩

/-- Three attributes of a file of which the second one has no feature; it is given one. -/
example : Right (run (resolve (fun a => if a = 2 then none else some 7) fresh [1, 2, 3]) [(2, some 7)]) :=
  C97_extended_partial _ _ (by decide) _ (by unfold Once; decide) (by simp)

/-! ### What does not hold -/

/-- **C97, violated.** An attribute that is given another target stays in the list of the one it had, whatever is done afterwards. -/
theorem C97_moved_violated (s : State) (a t u : Nat) (hs : s.target a = some t) (hr : Right s) (hu : u ≠ t) (h : History)
    (hn : ∀ c ∈ h, c.1 ≠ a) :
    (run (apiSet s a (some u)).1 h).target a = some u ∧ some a ∈ listed (run (apiSet s a (some u)).1 h) t ∧ ¬ Right (run (apiSet s a (some u)).1 h) := by
  have hmem : a ∈ s.linked t := ((right_iff s).1 hr t).2 a |>.2 hs
  have keep : ∀ (h : History) (s : State), (∀ c ∈ h, c.1 ≠ a) → s.target a = some u → a ∈ s.linked t →
      (run s h).target a = some u ∧ a ∈ (run s h).linked t := by
    intro h
    induction h with
    | nil => intro s _ h1 h2; exact ⟨h1, h2⟩
    | cons c h ih =>
      intro s hc h1 h2
      obtain ⟨b, v⟩ := c
      have hb : b ≠ a := hc (b, v) (by simp)
      cases v with
      | none => exact ih s (fun c hx => hc c (by simp [hx])) h1 h2
      | some v =>
        refine ih (set s b v) (fun c hx => hc c (by simp [hx])) ?_ ?_
        · simp only [set]
          rw [if_neg (Ne.symm hb)]
          exact h1
        · simp only [set]
          split
          · exact List.mem_append_left _ h2
          · exact h2
  obtain ⟨h1, h2⟩ := keep h (set s a u) hn (by simp [set]) (by simp [set, Ne.symm hu, hmem])
  refine ⟨h1, by rw [listed_eq]; exact List.mem_map.2 ⟨a, h2, rfl⟩, ?_⟩
  intro hr'
  have := ((right_iff _).1 hr' t).2 a |>.1 h2
  rw [show (apiSet s a (some u)).1 = set s a u from rfl, h1] at this
  exact hu (Option.some.inj this)

/-- **C97, violated.** An attribute that is given the target it has is listed twice. -/
theorem C97_again_violated (s : State) (a t : Nat) (hs : s.target a = some t) (hr : Right s) :
    count (apiSet s a (some t)).1 t = count s t + 1 ∧ ¬ Right (apiSet s a (some t)).1 := by
  have hmem : a ∈ s.linked t := ((right_iff s).1 hr t).2 a |>.2 hs
  refine ⟨by simp [apiSet, set, count], ?_⟩
  intro h
  have := ((right_iff _).1 h t).1
  simp only [apiSet, set, if_true] at this
  rw [List.nodup_append] at this
  exact this.2.2 a hmem a (by simp) rfl

/-- Such an attribute. -/
example : listed (run fresh [(1, some 7), (1, some 8)]) 7 = [some 1] ∧ listed (run fresh [(1, some 7), (1, some 7)]) 7 = [some 1, some 1] := by decide

example : some 1 ∈ listed (run (apiSet (set fresh 1 7) 1 (some 8)).1 [(2, some 7)]) 7 :=
  (C97_moved_violated (set fresh 1 7) 1 7 8 rfl (set_right fresh_right 1 7 rfl) (by decide) [(2, some 7)] (by simp)).2.1

end Verif.Attr
