import Verif.Link.Total

/-!
# C69: the links that are null in the fixture that was read
-/

namespace Verif.Link

open Lookup Lookup.Spec Spec

/-- The errors of a loop, in terms of the results. -/
theorem thread_nulls {σ α β : Type} {g : σ → α → Option (σ × β × List Err)} (e : Err) (D : β → Prop) (l : List α)
    (hg : ∀ x ∈ l, ∀ s s' y es, g s x = some (s', y, es) → (e ∈ es ↔ D y)) :
    ∀ s s' ys es, thread g s l = some (s', ys, es) → (e ∈ es ↔ ∃ y ∈ ys, D y) := by
  induction l with
  | nil =>
    intro s s' ys es h
    simp only [thread, Option.some.injEq, Prod.mk.injEq] at h
    obtain ⟨-, rfl, rfl⟩ := h
    simp
  | cons x l ih =>
    intro s s' ys es h
    rw [thread] at h
    cases h1 : g s x with
    | none => rw [h1] at h; simp at h
    | some r =>
      obtain ⟨s1, y, es1⟩ := r
      rw [h1, Option.bind_some] at h
      cases h2 : thread g s1 l with
      | none => simp [h2] at h
      | some q =>
        obtain ⟨s2, ys2, es2⟩ := q
        simp only [h2, Option.map_some, Option.some.injEq, Prod.mk.injEq] at h
        obtain ⟨-, rfl, rfl⟩ := h
        rw [List.mem_append, hg x List.mem_cons_self s s1 y es1 h1,
          ih (fun z hz => hg z (List.mem_cons_of_mem _ hz)) s1 s2 ys2 es2 h2]
        simp

theorem macro_nulls {T : Table Named} {L : Loaded} (i : Nat) (k : Macro Txt) (s s' : Unit) (y : Macro (Option Nat)) (es : List Err)
    (h : resolveMacro T L s k = some (s', y, es)) : (Code.macroChannel, i) ∈ es ↔ (i, none) ∈ y.dmx := by
  unfold resolveMacro at h
  cases h0 : (if k.fn = [] then some none else L.getFunction T k.fn) with
  | none => rw [h0] at h; simp at h
  | some fn =>
    rw [h0, Option.bind_some] at h
    cases h1 : thread (resolveDmxValue T L) () k.dmx with
    | none => rw [h1] at h; simp at h
    | some d =>
      obtain ⟨s1, vs, es1⟩ := d
      rw [h1, Option.bind_some] at h
      cases h2 : thread (resolveVisualValue T L) () k.visual with
      | none => rw [h2] at h; simp at h
      | some v =>
        rw [h2] at h
        simp only [Option.map_some, Option.some.injEq, Prod.mk.injEq] at h
        obtain ⟨-, rfl, rfl⟩ := h
        have := thread_nulls (Code.macroChannel, i) (fun v => v = (i, none)) k.dmx (fun v hv s s' y es hr => ?_) () s1 vs es1 h1
        · rw [this]; simp
        · unfold resolveDmxValue at hr
          cases h3 : L.getChannel T v.2 with
          | none => rw [h3] at hr; simp at hr
          | some r =>
            rw [h3] at hr
            simp only [Option.map_some, Option.some.injEq, Prod.mk.injEq] at hr
            obtain ⟨-, rfl, rfl⟩ := hr
            cases r with
            | none => simp [eq_comm]
            | some j => simp

theorem initial_nulls (i : Nat) (c : Chan Ptr Txt Txt) (r : Option Nat × List Err) (h : resolveInitial c = some r) :
    ((Code.initialFunction, i) ∈ r.2 ∨ (Code.noFunction, i) ∈ r.2) ↔ c.id = i ∧ r.1 = none := by
  unfold resolveInitial at h
  split at h
  · cases h3 : scanFn c.initial c.toCh.fnRefs with
    | none => rw [h3] at h; simp at h
    | some o =>
      rw [h3] at h
      cases o with
      | none => simp only [Option.map_some, Option.some.injEq] at h; subst h; simp [eq_comm]
      | some j => simp only [Option.map_some, Option.some.injEq] at h; subst h; simp
  · split at h
    · cases h; simp
    · cases h; simp [eq_comm]

/-- Which errors the loop over the logical channels can report. -/
theorem logicals_codes {f : Fixture} {T : Table Named} (e : Err) (h1 : e.1 ≠ .logicalAttribute) (h2 : e.1 ≠ .functionAttribute)
    (h3 : e.1 ≠ .mainAttribute) (ls : List (Logical Txt Txt)) (s s' : St) (ys : List (Logical Ptr Txt)) (es : List Err)
    (h : thread (resolveLogical f T) s ls = some (s', ys, es)) : e ∉ es := by
  have := (thread_errs (fun _ => True) e _ ls (fun l _ s s' y es _ hr =>
    logical_errs (attrFact_other T e h1 h2 h3) l ⟨trivial, fun _ _ => trivial⟩ s s' y es trivial hr) s s' ys es trivial h).2
  rw [this]
  rintro ⟨l, -, ⟨-, h⟩ | ⟨x, -, -, h⟩⟩ <;> exact h

theorem chan_nulls {f : Fixture} {T : Table Named} (i : Nat) (c : Chan Txt Txt Txt) (s s' : St)
    (y : Chan Ptr (Option Nat) Txt) (es : List Err) (hr : resolveChan f T s c = some (s', y, es)) :
    ((Code.initialFunction, i) ∈ es ∨ (Code.noFunction, i) ∈ es) ↔ y.id = i ∧ y.initial = none := by
  unfold resolveChan at hr
  simp only at hr
  cases h1 : thread (resolveLogical f T) s c.logicals with
  | none => rw [h1] at hr; simp at hr
  | some q =>
    obtain ⟨s1, ys, es1⟩ := q
    rw [h1, Option.bind_some] at hr
    cases h2 : resolveInitial ⟨c.id, c.name, f.channelGeometry T c.geom, c.initial, ys⟩ with
    | none => simp only [h2] at hr; simp at hr
    | some r =>
      simp only [h2, Option.map_some, Option.some.injEq, Prod.mk.injEq] at hr
      obtain ⟨-, rfl, rfl⟩ := hr
      have n1 := logicals_codes (Code.initialFunction, i) (by simp) (by simp) (by simp) c.logicals _ _ _ _ h1
      have n2 := logicals_codes (Code.noFunction, i) (by simp) (by simp) (by simp) c.logicals _ _ _ _ h1
      have hg : ∀ k : Code, k ≠ .channelGeometry → (k, i) ∉ (if f.channelGeometry T c.geom = none then [(Code.channelGeometry, c.id)] else []) := by
        intro k hk
        split <;> simp [hk]
      simp only [List.mem_append, hg _ (show Code.initialFunction ≠ .channelGeometry by decide),
        hg _ (show Code.noFunction ≠ .channelGeometry by decide), n1, n2, false_or]
      exact initial_nulls i _ r h2

/-- The same for both errors at once: the errors of a loop. -/
theorem thread_nulls2 {σ α β : Type} {g : σ → α → Option (σ × β × List Err)} (e e' : Err) (D : β → Prop) (l : List α)
    (hg : ∀ x ∈ l, ∀ s s' y es, g s x = some (s', y, es) → (e ∈ es ∨ e' ∈ es ↔ D y)) :
    ∀ s s' ys es, thread g s l = some (s', ys, es) → (e ∈ es ∨ e' ∈ es ↔ ∃ y ∈ ys, D y) := by
  induction l with
  | nil =>
    intro s s' ys es h
    simp only [thread, Option.some.injEq, Prod.mk.injEq] at h
    obtain ⟨-, rfl, rfl⟩ := h
    simp
  | cons x l ih =>
    intro s s' ys es h
    rw [thread] at h
    cases h1 : g s x with
    | none => rw [h1] at h; simp at h
    | some r =>
      obtain ⟨s1, y, es1⟩ := r
      rw [h1, Option.bind_some] at h
      cases h2 : thread g s1 l with
      | none => simp [h2] at h
      | some q =>
        obtain ⟨s2, ys2, es2⟩ := q
        simp only [h2, Option.map_some, Option.some.injEq, Prod.mk.injEq] at h
        obtain ⟨-, rfl, rfl⟩ := h
        have a1 := hg x List.mem_cons_self s s1 y es1 h1
        have a2 := ih (fun z hz => hg z (List.mem_cons_of_mem _ hz)) s1 s2 ys2 es2 h2
        simp only [List.mem_append, List.mem_cons, exists_eq_or_imp]
        rw [← a1, ← a2]
        constructor
        · rintro ((h | h) | (h | h))
          · exact Or.inl (Or.inl h)
          · exact Or.inr (Or.inl h)
          · exact Or.inl (Or.inr h)
          · exact Or.inr (Or.inr h)
        · rintro ((h | h) | (h | h))
          · exact Or.inl (Or.inl h)
          · exact Or.inr (Or.inl h)
          · exact Or.inl (Or.inr h)
          · exact Or.inr (Or.inr h)

theorem nameChan_keep {C M : Type} (c : Chan Ptr C M) : (nameChan c).id = c.id ∧ (nameChan c).initial = c.initial := by
  unfold nameChan
  split
  · exact ⟨rfl, rfl⟩
  · split <;> exact ⟨rfl, rfl⟩

theorem mode_nulls {f : Fixture} {T : Table Named} (i : Nat) (m : Mode Txt Txt Txt) (s s' : St)
    (y : Mode Ptr (Option Nat) Txt × Loaded) (es : List Err) (hr : resolveMode f T s m = some (s', y, es)) :
    ((Code.macroChannel, i) ∈ es ↔ ∃ k ∈ y.1.macros, (i, none) ∈ k.dmx) ∧
    (((Code.initialFunction, i) ∈ es ∨ (Code.noFunction, i) ∈ es) ↔ ∃ c ∈ y.1.chans, c.id = i ∧ c.initial = none) := by
  unfold resolveMode at hr
  simp only at hr
  cases h1 : thread (resolveChan f T) s m.chans with
  | none => rw [h1] at hr; simp at hr
  | some q =>
    obtain ⟨s1, cs, es1⟩ := q
    rw [h1, Option.bind_some] at hr
    simp only at hr
    cases h2 : load T (cs.map Chan.toCh) with
    | none => rw [h2] at hr; simp at hr
    | some L =>
      rw [h2, Option.bind_some] at hr
      cases h3 : thread (resolveRel T L) () m.relations with
      | none => rw [h3] at hr; simp at hr
      | some r =>
        rw [h3, Option.bind_some] at hr
        cases h4 : thread (resolveMacro T L) () m.macros with
        | none => rw [h4] at hr; simp at hr
        | some k =>
          obtain ⟨s4, ks, es4⟩ := k
          rw [h4] at hr
          simp only [Option.map_some, Option.some.injEq, Prod.mk.injEq] at hr
          obtain ⟨-, rfl, rfl⟩ := hr
          have hg : ∀ k : Code, k ≠ .modeGeometry → (k, i) ∉ (if f.modeGeometry m.geom = none then [(Code.modeGeometry, m.me.id)] else []) := by
            intro k hk
            split <;> simp [hk]
          have hc : (Code.macroChannel, i) ∉ es1 := by
            have := (thread_errs (fun _ => True) (Code.macroChannel, i) _ m.chans (fun c _ s s' y es _ hr =>
              chan_errs (attrFact_other T (Code.macroChannel, i) (by simp) (by simp) (by simp)) (by simp) c
                (fun _ _ => ⟨trivial, fun _ _ => trivial⟩) s s' y es trivial hr) s s1 cs es1 trivial h1).2
            rw [this]
            simp
          have hm1 := macro_codes (Code.initialFunction, i) (by simp) m.macros s4 ks es4 h4
          have hm2 := macro_codes (Code.noFunction, i) (by simp) m.macros s4 ks es4 h4
          have hk := thread_nulls (Code.macroChannel, i) (fun y => (i, none) ∈ y.dmx) m.macros
            (fun k _ s s' y es hr => macro_nulls i k s s' y es hr) () s4 ks es4 h4
          have hi := thread_nulls2 (Code.initialFunction, i) (Code.noFunction, i) (fun y => y.id = i ∧ y.initial = none) m.chans
            (fun c _ s s' y es hr => chan_nulls i c s s' y es hr) s s1 cs es1 h1
          refine ⟨?_, ?_⟩
          · simp only [List.mem_append, hg _ (show Code.macroChannel ≠ .modeGeometry by decide), hc, false_or, hk]
          · simp only [List.mem_append, hg _ (show Code.initialFunction ≠ .modeGeometry by decide),
              hg _ (show Code.noFunction ≠ .modeGeometry by decide), hm1, hm2, false_or, or_false, hi]
            constructor
            · rintro ⟨c, hc, h⟩
              refine ⟨nameChan c, List.mem_map.2 ⟨c, hc, rfl⟩, ?_⟩
              rw [(nameChan_keep c).1, (nameChan_keep c).2]
              exact h
            · rintro ⟨c, hc, h⟩
              obtain ⟨d, hd, rfl⟩ := List.mem_map.1 hc
              rw [(nameChan_keep d).1, (nameChan_keep d).2] at h
              exact ⟨d, hd, h⟩

/-- What the loop over the mode masters keeps. -/
theorem masterMode_keep {T : Table Named} (m : Mode Ptr (Option Nat) Txt × Loaded) (s s' : Unit) (y : Mode Ptr (Option Nat) Master)
    (es : List Err) (h : masterMode T s m = some (s', y, es)) :
    y.macros = m.1.macros ∧ y.chans.map (fun c => (c.id, c.initial)) = m.1.chans.map (fun c => (c.id, c.initial)) := by
  unfold masterMode at h
  cases h1 : thread (masterChan T m.2) () m.1.chans with
  | none => rw [h1] at h; simp at h
  | some q =>
    obtain ⟨s1, cs, es1⟩ := q
    rw [h1] at h
    simp only [Option.map_some, Option.some.injEq, Prod.mk.injEq] at h
    obtain ⟨-, rfl, -⟩ := h
    refine ⟨rfl, ?_⟩
    have := thread_length (fun (x : Chan Ptr (Option Nat) Txt) (y : Chan Ptr (Option Nat) Master) => (y.id, y.initial) = (x.id, x.initial))
      (fun c s s' y es hr => ?_) m.1.chans () s1 cs es1 h1
    · exact map_of_index this.1 this.2
    · unfold masterChan at hr
      cases h2 : thread (masterLogical T m.2 c.id) () c.logicals with
      | none => rw [h2] at hr; simp at hr
      | some q =>
        rw [h2] at hr
        simp only [Option.map_some, Option.some.injEq, Prod.mk.injEq] at hr
        obtain ⟨-, rfl, -⟩ := hr
        rfl

/-- **C69**, the links that are null afterwards: a value of a macro has a null channel if and only if it was reported, a channel
has no initial function if and only if it was reported, and a personality has no mode if and only if it was reported. -/
theorem C69_null_partial (W : Doc) (T : Table Named) (n : Nat) (F : Mem) (errs : List Err) (h : resolve T n W = some (F, errs))
    (i : Nat) :
    ((Code.macroChannel, i) ∈ errs ↔ ∃ m ∈ F.modes, ∃ k ∈ m.macros, (i, none) ∈ k.dmx) ∧
    (((Code.initialFunction, i) ∈ errs ∨ (Code.noFunction, i) ∈ errs) ↔ ∃ c ∈ channels F, c.id = i ∧ c.initial = none) ∧
    ((Code.personality, i) ∈ errs ↔ (i, none) ∈ F.persons) := by
  have hp := (C69_reported_partial W T n F errs h i).2.2.2.2.2.1
  unfold resolve at h
  simp only at h
  cases h1 : thread (resolveMode W.pool T) ⟨W.pool.attrState T, n, [], W.features⟩ W.modes with
  | none => rw [h1] at h; simp at h
  | some ms =>
    obtain ⟨s1, ys1, es1⟩ := ms
    rw [h1, Option.bind_some] at h
    cases h2 : thread (masterMode T) () ys1 with
    | none => simp only [h2] at h; simp at h
    | some mm =>
      obtain ⟨s2, ys2, es2⟩ := mm
      simp only [h2, Option.bind_some] at h
      cases h3 : thread (resolveAttr T W.groups) s1 W.attrs with
      | none => simp only [h3] at h; simp at h
      | some as =>
        obtain ⟨s3, ys3, es3⟩ := as
        simp only [h3, Option.map_some, Option.some.injEq, Prod.mk.injEq] at h
        obtain ⟨rfl, rfl⟩ := h
        have hgeo : ∀ k : Code, k ≠ .geometryModel → k ≠ .geometryReference → (k, i) ∉ (resolveGeos W.pool T W.geos).2 := by
          intro k k1 k2
          rw [geo_errs]
          simp [k1, k2]
        have hper : ∀ k : Code, k ≠ .personality → (k, i) ∉ (W.persons.map (resolvePerson (W.modes.map (·.me)))).flatMap Prod.snd := by
          intro k k1
          rw [person_errs]
          simp [k1]
        have hatt : ∀ k : Code, k ≠ .logicalAttribute → k ≠ .functionAttribute → k ≠ .mainAttribute → k ≠ .activationGroup →
            k ≠ .feature → (k, i) ∉ es3 := by
          intro k k1 k2 k3 k4 k5
          have := (thread_errs (fun s => s = s1 ∧ True) (k, i) _ W.attrs (fun a _ s s' y es hP hr =>
            attr_errs (attrFact_other T (k, i) k1 k2 k3) W.groups s1 a (fun _ => trivial) s s' y es hP hr) _ _ _ _ ⟨rfl, trivial⟩ h3).2
          rw [this]
          simp [k3, k4, k5]
        have hmas : ∀ k : Code, k ≠ .modeMaster → (k, i) ∉ es2 := fun k hk => master_codes T (k, i) hk ys1 s2 ys2 es2 h2
        have hkeep := thread_length (fun x y => y.macros = x.1.macros ∧ y.chans.map (fun c => (c.id, c.initial)) = x.1.chans.map (fun c => (c.id, c.initial)))
          (fun m s s' y es hr => masterMode_keep m s s' y es hr) ys1 () s2 ys2 es2 h2
        have m1 := thread_nulls (Code.macroChannel, i) (fun y => ∃ k ∈ y.1.macros, (i, none) ∈ k.dmx) W.modes
          (fun m _ s s' y es hr => (mode_nulls i m s s' y es hr).1) _ _ _ _ h1
        have m2 := thread_nulls2 (Code.initialFunction, i) (Code.noFunction, i)
          (fun y : Mode Ptr (Option Nat) Txt × Loaded => ∃ c ∈ y.1.chans, c.id = i ∧ c.initial = none) W.modes
          (fun m _ s s' y es hr => (mode_nulls i m s s' y es hr).2) _ _ _ _ h1
        have e1 : ys2.map (·.macros) = ys1.map (·.1.macros) := map_of_index hkeep.1 (fun k a b ha hb => (hkeep.2 k a b ha hb).1)
        have e2 : ys2.map (fun m => m.chans.map (fun c => (c.id, c.initial))) = ys1.map (fun m => m.1.chans.map (fun c => (c.id, c.initial))) :=
          map_of_index hkeep.1 (fun k a b ha hb => (hkeep.2 k a b ha hb).2)
        refine ⟨?_, ?_, ?_⟩
        · simp only [List.mem_append, hgeo _ (show Code.macroChannel ≠ .geometryModel by decide) (by decide), m1,
            hmas _ (show Code.macroChannel ≠ .modeMaster by decide), hper _ (show Code.macroChannel ≠ .personality by decide),
            hatt _ (show Code.macroChannel ≠ .logicalAttribute by decide) (by decide) (by decide) (by decide) (by decide), false_or, or_false]
          constructor
          · rintro ⟨y, hy, hk⟩
            have : y.1.macros ∈ ys2.map (·.macros) := by rw [e1]; exact List.mem_map.2 ⟨y, hy, rfl⟩
            obtain ⟨m, hm, he⟩ := List.mem_map.1 this
            exact ⟨m, hm, by rw [he]; exact hk⟩
          · rintro ⟨m, hm, hk⟩
            have : m.macros ∈ ys1.map (·.1.macros) := by rw [← e1]; exact List.mem_map.2 ⟨m, hm, rfl⟩
            obtain ⟨y, hy, he⟩ := List.mem_map.1 this
            exact ⟨y, hy, by rw [he]; exact hk⟩
        · simp only [List.mem_append, hgeo _ (show Code.initialFunction ≠ .geometryModel by decide) (by decide),
            hgeo _ (show Code.noFunction ≠ .geometryModel by decide) (by decide),
            hmas _ (show Code.initialFunction ≠ .modeMaster by decide), hper _ (show Code.initialFunction ≠ .personality by decide),
            hmas _ (show Code.noFunction ≠ .modeMaster by decide), hper _ (show Code.noFunction ≠ .personality by decide),
            hatt _ (show Code.initialFunction ≠ .logicalAttribute by decide) (by decide) (by decide) (by decide) (by decide),
            hatt _ (show Code.noFunction ≠ .logicalAttribute by decide) (by decide) (by decide) (by decide) (by decide), false_or, or_false, m2]
          unfold channels
          simp only [List.mem_flatMap]
          constructor
          · rintro ⟨y, hy, c, hc, h1, h2⟩
            have : y.1.chans.map (fun c => (c.id, c.initial)) ∈ ys2.map (fun m => m.chans.map (fun c => (c.id, c.initial))) := by
              rw [e2]; exact List.mem_map.2 ⟨y, hy, rfl⟩
            obtain ⟨m, hm, he⟩ := List.mem_map.1 this
            have : (c.id, c.initial) ∈ m.chans.map (fun c => (c.id, c.initial)) := by rw [he]; exact List.mem_map.2 ⟨c, hc, rfl⟩
            obtain ⟨d, hd, hde⟩ := List.mem_map.1 this
            simp only [Prod.mk.injEq] at hde
            exact ⟨d, ⟨m, hm, hd⟩, by rw [hde.1]; exact h1, by rw [hde.2]; exact h2⟩
          · rintro ⟨c, ⟨m, hm, hc⟩, h1, h2⟩
            have : m.chans.map (fun c => (c.id, c.initial)) ∈ ys1.map (fun m => m.1.chans.map (fun c => (c.id, c.initial))) := by
              rw [← e2]; exact List.mem_map.2 ⟨m, hm, rfl⟩
            obtain ⟨y, hy, he⟩ := List.mem_map.1 this
            have : (c.id, c.initial) ∈ y.1.chans.map (fun c => (c.id, c.initial)) := by rw [he]; exact List.mem_map.2 ⟨c, hc, rfl⟩
            obtain ⟨d, hd, hde⟩ := List.mem_map.1 this
            simp only [Prod.mk.injEq] at hde
            exact ⟨y, hy, d, hd, by rw [hde.1]; exact h1, by rw [hde.2]; exact h2⟩
        · rw [hp]
          simp only [List.mem_map]
          constructor
          · rintro ⟨p, hpm, rfl, hu⟩
            rw [← scan_none_iff] at hu
            refine ⟨_, ⟨p, hpm, rfl⟩, ?_⟩
            unfold resolvePerson
            rw [hu]
          · rintro ⟨_, ⟨p, hp, rfl⟩, he⟩
            refine ⟨p, hp, ?_⟩
            unfold resolvePerson at he
            cases hs : scan (W.modes.map (·.me)) p.2 with
            | some x => rw [hs] at he; simp at he
            | none =>
              rw [hs] at he
              simp only [Prod.mk.injEq, and_true] at he
              exact ⟨he, (scan_none_iff _ _).1 hs⟩

end Verif.Link
