import Verif.Link.Nulls

/-!
# C69: mode masters
-/

namespace Verif.Link

open Lookup Lookup.Spec Spec

namespace Spec

/-- The mode masters of all functions of a channel, each with the identity of the channel. -/
def mastersOfChan {L C M : Type} (c : Chan L C M) : List (Nat × M) := c.logicals.flatMap (fun l => l.fns.map (fun x => (c.id, x.master)))

/-- The mode masters of all functions of a fixture in document order, each with the identity of its channel: the texts of a
description, the links of a fixture. -/
def masters {L C M : Type} (F : Fx L C M) : List (Nat × M) := F.modes.flatMap (fun m => m.chans.flatMap mastersOfChan)

end Spec

/-- The errors of a loop, in terms of what elements and results contain. -/
theorem thread_zip {σ α β γ δ : Type} {g : σ → α → Option (σ × β × List Err)} (A : α → List γ) (B : β → List δ) (e : Err)
    (D : γ → δ → Prop) (l : List α)
    (hg : ∀ x ∈ l, ∀ s s' y es, g s x = some (s', y, es) →
      (B y).length = (A x).length ∧ (e ∈ es ↔ ∃ p ∈ (A x).zip (B y), D p.1 p.2)) :
    ∀ s s' ys es, thread g s l = some (s', ys, es) →
      (ys.flatMap B).length = (l.flatMap A).length ∧ (e ∈ es ↔ ∃ p ∈ (l.flatMap A).zip (ys.flatMap B), D p.1 p.2) := by
  induction l with
  | nil =>
    intro s s' ys es h
    simp only [thread, Option.some.injEq, Prod.mk.injEq] at h
    obtain ⟨-, rfl, rfl⟩ := h
    simp
  | cons x l ih =>
    intro s s' ys es h
    rw [thread] at h
    cases h1 : g s x with
    | none => rw [h1] at h; simp at h
    | some r =>
      obtain ⟨s1, y, es1⟩ := r
      rw [h1, Option.bind_some] at h
      cases h2 : thread g s1 l with
      | none => simp [h2] at h
      | some q =>
        obtain ⟨s2, ys2, es2⟩ := q
        simp only [h2, Option.map_some, Option.some.injEq, Prod.mk.injEq] at h
        obtain ⟨-, rfl, rfl⟩ := h
        obtain ⟨l1, e1⟩ := hg x List.mem_cons_self s s1 y es1 h1
        obtain ⟨l2, e2⟩ := ih (fun z hz => hg z (List.mem_cons_of_mem _ hz)) s1 s2 ys2 es2 h2
        refine ⟨by simp [l1, l2], ?_⟩
        rw [List.mem_append, e1, e2, List.flatMap_cons, List.flatMap_cons, List.zip_append l1.symm]
        simp only [List.mem_append, or_and_right, exists_or]

/-- What a loop keeps. -/
theorem thread_keeps {σ α β γ : Type} {g : σ → α → Option (σ × β × List Err)} (A : α → List γ) (B : β → List γ) (l : List α)
    (hg : ∀ x ∈ l, ∀ s s' y es, g s x = some (s', y, es) → B y = A x) :
    ∀ s s' ys es, thread g s l = some (s', ys, es) → ys.flatMap B = l.flatMap A := by
  induction l with
  | nil =>
    intro s s' ys es h
    simp only [thread, Option.some.injEq, Prod.mk.injEq] at h
    obtain ⟨-, rfl, rfl⟩ := h
    rfl
  | cons x l ih =>
    intro s s' ys es h
    rw [thread] at h
    cases h1 : g s x with
    | none => rw [h1] at h; simp at h
    | some r =>
      obtain ⟨s1, y, es1⟩ := r
      rw [h1, Option.bind_some] at h
      cases h2 : thread g s1 l with
      | none => simp [h2] at h
      | some q =>
        obtain ⟨s2, ys2, es2⟩ := q
        simp only [h2, Option.map_some, Option.some.injEq, Prod.mk.injEq] at h
        obtain ⟨-, rfl, rfl⟩ := h
        rw [List.flatMap_cons, List.flatMap_cons, hg x List.mem_cons_self s s1 y es1 h1,
          ih (fun z hz => hg z (List.mem_cons_of_mem _ hz)) s1 s2 ys2 es2 h2]

/-- A text that leads nowhere. -/
def Lost (i : Nat) (p : Nat × Txt) (q : Nat × Master) : Prop := p.1 = i ∧ p.2 ≠ [] ∧ q.2 = .unresolved

theorem masterFn_zip {T : Table Named} {L : Loaded} (c i : Nat) (x : Func Ptr Txt) (s s' : Unit) (y : Func Ptr Master)
    (es : List Err) (h : masterFn T L c s x = some (s', y, es)) :
    (Code.modeMaster, i) ∈ es ↔ ∃ p ∈ ([(c, x.master)]).zip [(c, y.master)], Lost i p.1 p.2 := by
  unfold masterFn at h
  by_cases hm : x.master = []
  · simp only [hm, if_true, Option.map_some, Option.some.injEq, Prod.mk.injEq] at h
    obtain ⟨-, rfl, rfl⟩ := h
    simp [Lost, hm]
  · simp only [hm, if_false] at h
    cases h4 : L.modeMaster T x.master with
    | none => rw [h4] at h; simp at h
    | some r =>
      rw [h4] at h
      simp only [Option.map_some, Option.some.injEq, Prod.mk.injEq] at h
      obtain ⟨-, rfl, rfl⟩ := h
      by_cases hr : r = .unresolved
      · simp [Lost, hm, hr, eq_comm]
      · simp [Lost, hm, hr]

theorem masterChan_zip {T : Table Named} {L : Loaded} (i : Nat) (c : Chan Ptr (Option Nat) Txt) (s s' : Unit)
    (y : Chan Ptr (Option Nat) Master) (es : List Err) (h : masterChan T L s c = some (s', y, es)) :
    (mastersOfChan y).length = (mastersOfChan c).length ∧
    ((Code.modeMaster, i) ∈ es ↔ ∃ p ∈ (mastersOfChan c).zip (mastersOfChan y), Lost i p.1 p.2) := by
  unfold masterChan at h
  cases h1 : thread (masterLogical T L c.id) () c.logicals with
  | none => rw [h1] at h; simp at h
  | some q =>
    obtain ⟨s1, ls, es1⟩ := q
    rw [h1] at h
    simp only [Option.map_some, Option.some.injEq, Prod.mk.injEq] at h
    obtain ⟨-, rfl, rfl⟩ := h
    refine thread_zip (fun l => l.fns.map (fun x => (c.id, x.master))) (fun l => l.fns.map (fun x => (c.id, x.master)))
      (Code.modeMaster, i) (Lost i) c.logicals (fun l _ s s' y es hr => ?_) () s1 ls es1 h1
    unfold masterLogical at hr
    cases h2 : thread (masterFn T L c.id) () l.fns with
    | none => rw [h2] at hr; simp at hr
    | some q =>
      obtain ⟨s2, fs, es2⟩ := q
      rw [h2] at hr
      simp only [Option.map_some, Option.some.injEq, Prod.mk.injEq] at hr
      obtain ⟨-, rfl, rfl⟩ := hr
      have := thread_zip (fun x => [(c.id, x.master)]) (fun x => [(c.id, x.master)])
        (Code.modeMaster, i) (Lost i) l.fns (fun x _ s s' y es hr => ⟨rfl, masterFn_zip c.id i x s s' y es hr⟩) () s2 fs es2 h2
      rw [← List.map_eq_flatMap, ← List.map_eq_flatMap] at this
      exact this

theorem masterMode_zip {T : Table Named} (i : Nat) (m : Mode Ptr (Option Nat) Txt × Loaded) (s s' : Unit)
    (y : Mode Ptr (Option Nat) Master) (es : List Err) (h : masterMode T s m = some (s', y, es)) :
    (y.chans.flatMap mastersOfChan).length = (m.1.chans.flatMap mastersOfChan).length ∧
    ((Code.modeMaster, i) ∈ es ↔ ∃ p ∈ (m.1.chans.flatMap mastersOfChan).zip (y.chans.flatMap mastersOfChan), Lost i p.1 p.2) := by
  unfold masterMode at h
  cases h1 : thread (masterChan T m.2) () m.1.chans with
  | none => rw [h1] at h; simp at h
  | some q =>
    obtain ⟨s1, cs, es1⟩ := q
    rw [h1] at h
    simp only [Option.map_some, Option.some.injEq, Prod.mk.injEq] at h
    obtain ⟨-, rfl, rfl⟩ := h
    exact thread_zip mastersOfChan mastersOfChan (Code.modeMaster, i) (Lost i) m.1.chans
      (fun c _ s s' y es hr => masterChan_zip i c s s' y es hr) () s1 cs es1 h1

theorem nameFuncs_masters {M : Type} (l : List (Func Ptr M)) : ∀ n, (nameFuncs n l).map (·.master) = l.map (·.master) := by
  induction l with
  | nil => intro n; rfl
  | cons f l ih =>
    intro n
    unfold nameFuncs
    split
    · split
      · simp [ih]
      · simp [ih]
    · simp [ih]

theorem nameChan_mastersOf {C M : Type} (c : Chan Ptr C M) : mastersOfChan (nameChan c) = mastersOfChan c := by
  have hl : ∀ (i : Nat) (l : Logical Ptr M), (nameLogical l).fns.map (fun x => (i, x.master)) = l.fns.map (fun x => (i, x.master)) := by
    intro i l
    have : ∀ fs : List (Func Ptr M), fs.map (fun x => (i, x.master)) = (fs.map (·.master)).map (fun m => (i, m)) := by
      intro fs; simp
    unfold nameLogical
    split
    · rfl
    · rw [this, this, nameFuncs_masters]
  have hm : ∀ i : Nat, (c.logicals.map nameLogical).flatMap (fun l => l.fns.map (fun x => (i, x.master))) =
      c.logicals.flatMap (fun l => l.fns.map (fun x => (i, x.master))) := by
    intro i
    rw [List.flatMap_map]
    exact congrArg (fun h => List.flatMap h c.logicals) (funext fun l => hl i l)
  unfold nameChan
  split
  · rfl
  · split
    · exact hm _
    · exact hm _

theorem resolveMode_masters {f : Fixture} {T : Table Named} (m : Mode Txt Txt Txt) (s s' : St)
    (y : Mode Ptr (Option Nat) Txt × Loaded) (es : List Err) (hr : resolveMode f T s m = some (s', y, es)) :
    y.1.chans.flatMap mastersOfChan = m.chans.flatMap mastersOfChan := by
  unfold resolveMode at hr
  simp only at hr
  cases h1 : thread (resolveChan f T) s m.chans with
  | none => rw [h1] at hr; simp at hr
  | some q =>
    obtain ⟨s1, cs, es1⟩ := q
    rw [h1, Option.bind_some] at hr
    simp only at hr
    cases h2 : load T (cs.map Chan.toCh) with
    | none => rw [h2] at hr; simp at hr
    | some L =>
      rw [h2, Option.bind_some] at hr
      cases h3 : thread (resolveRel T L) () m.relations with
      | none => rw [h3] at hr; simp at hr
      | some r =>
        rw [h3, Option.bind_some] at hr
        cases h4 : thread (resolveMacro T L) () m.macros with
        | none => rw [h4] at hr; simp at hr
        | some k =>
          rw [h4] at hr
          simp only [Option.map_some, Option.some.injEq, Prod.mk.injEq] at hr
          obtain ⟨-, rfl, -⟩ := hr
          show (cs.map nameChan).flatMap mastersOfChan = _
          rw [List.flatMap_map, show (fun c : Chan Ptr (Option Nat) Txt => mastersOfChan (nameChan c)) = mastersOfChan from funext nameChan_mastersOf]
          refine thread_keeps mastersOfChan mastersOfChan m.chans (fun c _ s s' y es hr => ?_) s s1 cs es1 h1
          unfold resolveChan at hr
          simp only at hr
          cases g1 : thread (resolveLogical f T) s c.logicals with
          | none => rw [g1] at hr; simp at hr
          | some q =>
            obtain ⟨t1, ls, fs1⟩ := q
            rw [g1, Option.bind_some] at hr
            cases g2 : resolveInitial ⟨c.id, c.name, f.channelGeometry T c.geom, c.initial, ls⟩ with
            | none => simp only [g2] at hr; simp at hr
            | some j =>
              simp only [g2, Option.map_some, Option.some.injEq, Prod.mk.injEq] at hr
              obtain ⟨-, rfl, -⟩ := hr
              refine thread_keeps (fun l => l.fns.map (fun x => (c.id, x.master))) (fun l => l.fns.map (fun x => (c.id, x.master)))
                c.logicals (fun l _ s s' y es hr => ?_) s t1 ls fs1 g1
              unfold resolveLogical at hr
              simp only at hr
              cases k1 : thread (resolveFn f T) (s.getAttr T l.attr).1 l.fns with
              | none => rw [k1] at hr; simp at hr
              | some q =>
                obtain ⟨u1, xs, gs1⟩ := q
                rw [k1] at hr
                simp only [Option.map_some, Option.some.injEq, Prod.mk.injEq] at hr
                obtain ⟨-, rfl, -⟩ := hr
                have := thread_keeps (fun x => [(c.id, x.master)]) (fun x => [(c.id, x.master)]) l.fns (fun x _ s s' y es hr => by
                  unfold resolveFn at hr
                  simp only [Option.some.injEq, Prod.mk.injEq] at hr
                  obtain ⟨-, rfl, -⟩ := hr
                  rfl) _ u1 xs gs1 k1
                rw [← List.map_eq_flatMap, ← List.map_eq_flatMap] at this
                exact this

/-- **C69**, mode masters: a channel is reported if and only if a function of it names a mode master but has none afterwards. -/
theorem C69_masters_partial (W : Doc) (T : Table Named) (n : Nat) (F : Mem) (errs : List Err) (h : resolve T n W = some (F, errs))
    (i : Nat) : (masters F).length = (masters W).length ∧
    ((Code.modeMaster, i) ∈ errs ↔ ∃ p ∈ (masters W).zip (masters F), p.1.1 = i ∧ p.1.2 ≠ [] ∧ p.2.2 = .unresolved) := by
  unfold resolve at h
  simp only at h
  cases h1 : thread (resolveMode W.pool T) ⟨W.pool.attrState T, n, [], W.features⟩ W.modes with
  | none => rw [h1] at h; simp at h
  | some ms =>
    obtain ⟨s1, ys1, es1⟩ := ms
    rw [h1, Option.bind_some] at h
    cases h2 : thread (masterMode T) () ys1 with
    | none => simp only [h2] at h; simp at h
    | some mm =>
      obtain ⟨s2, ys2, es2⟩ := mm
      simp only [h2, Option.bind_some] at h
      cases h3 : thread (resolveAttr T W.groups) s1 W.attrs with
      | none => simp only [h3] at h; simp at h
      | some as =>
        obtain ⟨s3, ys3, es3⟩ := as
        simp only [h3, Option.map_some, Option.some.injEq, Prod.mk.injEq] at h
        obtain ⟨rfl, rfl⟩ := h
        have hgeo : (Code.modeMaster, i) ∉ (resolveGeos W.pool T W.geos).2 := by
          rw [geo_errs]; simp
        have hper : (Code.modeMaster, i) ∉ (W.persons.map (resolvePerson (W.modes.map (·.me)))).flatMap Prod.snd := by
          rw [person_errs]; simp
        have hatt : (Code.modeMaster, i) ∉ es3 := by
          have := (thread_errs (fun s => s = s1 ∧ True) (Code.modeMaster, i) _ W.attrs (fun a _ s s' y es hP hr =>
            attr_errs (attrFact_other T (Code.modeMaster, i) (by simp) (by simp) (by simp)) W.groups s1 a (fun _ => trivial) s s' y es hP hr)
            _ _ _ _ ⟨rfl, trivial⟩ h3).2
          rw [this]
          simp
        have hmod : (Code.modeMaster, i) ∉ es1 := by
          have := (thread_errs (fun _ => True) (Code.modeMaster, i) _ W.modes (fun m _ s s' y es _ hr =>
            mode_errs (attrFact_other T (Code.modeMaster, i) (by simp) (by simp) (by simp)) (by simp) (by simp) m
              (fun _ _ _ _ => ⟨trivial, fun _ _ => trivial⟩) s s' y es trivial hr) _ _ _ _ trivial h1).2
          rw [this]
          simp
        have hz := thread_zip (fun m : Mode Ptr (Option Nat) Txt × Loaded => m.1.chans.flatMap mastersOfChan)
          (fun m => m.chans.flatMap mastersOfChan) (Code.modeMaster, i) (Lost i) ys1
          (fun m _ s s' y es hr => masterMode_zip i m s s' y es hr) () s2 ys2 es2 h2
        have hk := thread_keeps (fun m : Mode Txt Txt Txt => m.chans.flatMap mastersOfChan)
          (fun m : Mode Ptr (Option Nat) Txt × Loaded => m.1.chans.flatMap mastersOfChan) W.modes
          (fun m _ s s' y es hr => resolveMode_masters m s s' y es hr) _ s1 ys1 es1 h1
        rw [hk] at hz
        refine ⟨hz.1, ?_⟩
        simp only [List.mem_append, hgeo, hmod, hper, hatt, false_or, or_false]
        exact hz.2

end Verif.Link
