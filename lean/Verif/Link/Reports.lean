import Verif.Link.Props

/-!
# C69: which links of a description are reported
-/

namespace Verif.Link

open Lookup Lookup.Spec Spec

/-! ## Specification -/

namespace Spec

/-- No element of the list has the name. -/
def Unknown (l : List Named) (t : Txt) : Prop := ∀ x ∈ l, ¬ SameName x.ref t

/-- The channels of all modes. -/
def channels {L C M : Type} (F : Fx L C M) : List (Chan L C M) := F.modes.flatMap (·.chans)

/-- The logical channels of all modes. -/
def logicals {L C M : Type} (F : Fx L C M) : List (Logical L M) := (channels F).flatMap (·.logicals)

/-- The functions of all modes. -/
def functions {L C M : Type} (F : Fx L C M) : List (Func L M) := (logicals F).flatMap (·.fns)

end Spec

/-! ## Lemmas -/

theorem scan_none_iff (l : List Named) (t : Txt) : scan l t = none ↔ Unknown l t := by
  unfold scan Unknown
  rw [List.find?_eq_none]
  constructor
  · intro h x hx hs
    exact h x hx ((eqNoCase_iff _ _).2 hs)
  · intro h x hx hb
    exact h x hx ((eqNoCase_iff _ _).1 hb)

/-- The errors of a loop: those of the steps. -/
theorem thread_errs {σ α β : Type} {g : σ → α → Option (σ × β × List Err)} (P : σ → Prop) (e : Err) (D : α → Prop) (l : List α)
    (hg : ∀ x ∈ l, ∀ s s' y es, P s → g s x = some (s', y, es) → P s' ∧ (e ∈ es ↔ D x)) :
    ∀ s s' ys es, P s → thread g s l = some (s', ys, es) → P s' ∧ (e ∈ es ↔ ∃ x ∈ l, D x) := by
  induction l with
  | nil =>
    intro s s' ys es hP h
    simp only [thread, Option.some.injEq, Prod.mk.injEq] at h
    obtain ⟨rfl, -, rfl⟩ := h
    exact ⟨hP, by simp⟩
  | cons x l ih =>
    intro s s' ys es hP h
    rw [thread] at h
    cases h1 : g s x with
    | none => rw [h1] at h; simp at h
    | some r =>
      obtain ⟨s1, y, es1⟩ := r
      rw [h1, Option.bind_some] at h
      cases h2 : thread g s1 l with
      | none => simp [h2] at h
      | some q =>
        obtain ⟨s2, ys2, es2⟩ := q
        simp only [h2, Option.map_some, Option.some.injEq, Prod.mk.injEq] at h
        obtain ⟨rfl, -, rfl⟩ := h
        obtain ⟨hP1, he1⟩ := hg x List.mem_cons_self s s1 y es1 hP h1
        obtain ⟨hP2, he2⟩ := ih (fun z hz => hg z (List.mem_cons_of_mem _ hz)) s1 s2 ys2 es2 hP1 h2
        refine ⟨hP2, ?_⟩
        simp only [List.mem_append, he1, he2, List.mem_cons, exists_eq_or_imp]

theorem geo_errs (f : Fixture) (T : Table Named) (e : Err) (gs : List (Geo Txt)) :
    e ∈ (resolveGeos f T gs).2 ↔
      (∃ n ∈ nodes gs, e = (.geometryModel, n.1.id) ∧ n.2.1 ≠ [] ∧ Unknown f.models n.2.1) ∨
      (∃ n ∈ nodes gs, ∃ t, e = (.geometryReference, n.1.id) ∧ n.2.2 = .reference t ∧ Unknown (documentOrder f.geometries) t) := by
  induction gs using trees.induct with
  | case1 => simp [resolveGeos, nodes]
  | case2 me model own kids rest ih1 ih2 =>
    rw [resolveGeos, nodes]
    simp only [List.mem_append, ih1, ih2]
    have hm : e ∈ (resolveModel f T me.id model).2 ↔ (e = (.geometryModel, me.id) ∧ model ≠ [] ∧ Unknown f.models model) := by
      unfold resolveModel
      by_cases h0 : model = []
      · simp [h0]
      · have hs := getByRef_eq f T .model model
        have hn := scan_none_iff f.models model
        cases h1 : f.getByRef T .model model with
        | none =>
          rw [h1] at hs
          have := hn.1 hs.symm
          simp [h0, this]
        | some x =>
          rw [h1] at hs
          have : ¬ Unknown f.models model := by
            rw [← hn]
            show ¬ scan (f.elements .model) model = none
            rw [← hs]; simp
          simp [h0, this]
    have ho : e ∈ (resolveOwn f T me.id own).2 ↔
        (∃ t, e = (.geometryReference, me.id) ∧ own = .reference t ∧ Unknown (documentOrder f.geometries) t) := by
      cases own with
      | reference t =>
        unfold resolveOwn
        have hs := resolveGeometry_eq f T t
        have hn := scan_none_iff (documentOrder f.geometries) t
        cases h1 : f.resolveGeometry T t with
        | none =>
          rw [h1] at hs
          have := hn.1 hs.symm
          simp only [h1, List.mem_singleton, Own.reference.injEq]
          exact ⟨fun h => ⟨t, h, rfl, this⟩, fun ⟨_, h, _⟩ => h⟩
        | some x =>
          rw [h1] at hs
          have : ¬ Unknown (documentOrder f.geometries) t := by rw [← hn, ← hs]; simp
          simp only [h1, List.not_mem_nil, Own.reference.injEq, false_iff]
          rintro ⟨t', -, rfl, h⟩
          exact this h
      | _ => simp [resolveOwn]
    rw [hm, ho]
    simp only [List.mem_cons, List.mem_append, exists_eq_or_imp]
    constructor
    · rintro (((h | h) | (⟨n, hn, h⟩ | ⟨n, hn, h⟩)) | (⟨n, hn, h⟩ | ⟨n, hn, h⟩))
      · exact Or.inl (Or.inl h)
      · exact Or.inr (Or.inl h)
      · exact Or.inl (Or.inr ⟨n, Or.inl hn, h⟩)
      · exact Or.inr (Or.inr ⟨n, Or.inl hn, h⟩)
      · exact Or.inl (Or.inr ⟨n, Or.inr hn, h⟩)
      · exact Or.inr (Or.inr ⟨n, Or.inr hn, h⟩)
    · rintro ((h | ⟨n, hn | hn, h⟩) | (h | ⟨n, hn | hn, h⟩))
      · exact Or.inl (Or.inl (Or.inl h))
      · exact Or.inl (Or.inr (Or.inl ⟨n, hn, h⟩))
      · exact Or.inr (Or.inl ⟨n, hn, h⟩)
      · exact Or.inl (Or.inl (Or.inr h))
      · exact Or.inl (Or.inr (Or.inr ⟨n, hn, h⟩))
      · exact Or.inr (Or.inr ⟨n, hn, h⟩)

/-- The first logical channel has a function. -/
def HasFirst {L M : Type} : List (Logical L M) → Prop
  | ⟨_, _, _, _ :: _⟩ :: _ => True
  | _ => False

theorem thread_length {σ α β : Type} {g : σ → α → Option (σ × β × List Err)} (R : α → β → Prop)
    (hg : ∀ x s s' y es, g s x = some (s', y, es) → R x y) (l : List α) : ∀ s s' ys es,
    thread g s l = some (s', ys, es) → ys.length = l.length ∧ ∀ (k : Nat) (x : α) (y : β), l[k]? = some x → ys[k]? = some y → R x y := by
  induction l with
  | nil =>
    intro s s' ys es h
    simp only [thread, Option.some.injEq, Prod.mk.injEq] at h
    obtain ⟨-, rfl, -⟩ := h
    exact ⟨rfl, by simp⟩
  | cons x l ih =>
    intro s s' ys es h
    rw [thread] at h
    cases h1 : g s x with
    | none => rw [h1] at h; simp at h
    | some r =>
      obtain ⟨s1, y, es1⟩ := r
      rw [h1, Option.bind_some] at h
      cases h2 : thread g s1 l with
      | none => simp [h2] at h
      | some q =>
        obtain ⟨s2, ys2, es2⟩ := q
        simp only [h2, Option.map_some, Option.some.injEq, Prod.mk.injEq] at h
        obtain ⟨-, rfl, -⟩ := h
        obtain ⟨hl, hR⟩ := ih s1 s2 ys2 es2 h2
        refine ⟨by simp [hl], ?_⟩
        intro k a b ha hb
        cases k with
        | zero =>
          simp only [List.getElem?_cons_zero, Option.some.injEq] at ha hb
          subst ha; subst hb
          exact hg x s s1 y es1 h1
        | succ k =>
          simp only [List.getElem?_cons_succ] at ha hb
          exact hR k a b ha hb

/-- What the loops over the modes need to know about the lookup of attributes, for the error `e`. -/
structure AttrFact (T : Table Named) (e : Err) (P : St → Prop) (ok : Txt → Prop) (A : Txt → Prop) : Prop where
  keep : ∀ s t, P s → ok t → P (s.getAttr T t).1
  none : e.1 = .logicalAttribute ∨ e.1 = .functionAttribute ∨ e.1 = .mainAttribute → ∀ s t, P s → ok t → ((s.getAttr T t).2 = none ↔ A t)

theorem fn_errs {f : Fixture} {T : Table Named} {e : Err} {P : St → Prop} {ok A : Txt → Prop} (h : AttrFact T e P ok A)
    (x : Func Txt Txt) (hok : ok x.attr) (s s' : St) (y : Func Ptr Txt) (es : List Err) (hP : P s)
    (hr : resolveFn f T s x = some (s', y, es)) :
    P s' ∧ (e ∈ es ↔ e = (.functionAttribute, x.id) ∧ A x.attr) := by
  unfold resolveFn at hr
  simp only [Option.some.injEq, Prod.mk.injEq] at hr
  obtain ⟨rfl, -, rfl⟩ := hr
  refine ⟨h.keep s x.attr hP hok, ?_⟩
  by_cases he : e = (.functionAttribute, x.id)
  · have := h.none (Or.inr (Or.inl (by rw [he]))) s x.attr hP hok
    by_cases hn : (s.getAttr T x.attr).2 = none
    · simp [hn, he, this.1 hn]
    · simp [hn, mt this.2 hn]
  · split <;> simp [he]

theorem logical_errs {f : Fixture} {T : Table Named} {e : Err} {P : St → Prop} {ok A : Txt → Prop} (h : AttrFact T e P ok A)
    (l : Logical Txt Txt) (hok : ok l.attr ∧ ∀ x ∈ l.fns, ok x.attr) (s s' : St) (y : Logical Ptr Txt) (es : List Err) (hP : P s)
    (hr : resolveLogical f T s l = some (s', y, es)) :
    P s' ∧ (e ∈ es ↔ (e = (.logicalAttribute, l.id) ∧ A l.attr) ∨ ∃ x ∈ l.fns, e = (.functionAttribute, x.id) ∧ A x.attr) := by
  unfold resolveLogical at hr
  simp only at hr
  cases h1 : thread (resolveFn f T) (s.getAttr T l.attr).1 l.fns with
  | none => rw [h1] at hr; simp at hr
  | some q =>
    obtain ⟨s1, ys, es1⟩ := q
    rw [h1] at hr
    simp only [Option.map_some, Option.some.injEq, Prod.mk.injEq] at hr
    obtain ⟨rfl, -, rfl⟩ := hr
    obtain ⟨hP1, he1⟩ := thread_errs P e (fun x => e = (.functionAttribute, x.id) ∧ A x.attr) l.fns
      (fun x hx s s' y es hP hr => fn_errs h x (hok.2 x hx) s s' y es hP hr) _ _ _ _ (h.keep s l.attr hP hok.1) h1
    refine ⟨hP1, ?_⟩
    rw [List.mem_append, he1]
    refine or_congr ?_ Iff.rfl
    by_cases he : e = (.logicalAttribute, l.id)
    · have := h.none (Or.inl (by rw [he])) s l.attr hP hok.1
      by_cases hn : (s.getAttr T l.attr).2 = none
      · simp [hn, he, this.1 hn]
      · simp [hn, mt this.2 hn]
    · split <;> simp [he]

theorem fns_shape {f : Fixture} {T : Table Named} (l : Logical Txt Txt) (s s' : St) (y : Logical Ptr Txt) (es : List Err)
    (hr : resolveLogical f T s l = some (s', y, es)) : y.fns.length = l.fns.length := by
  unfold resolveLogical at hr
  simp only at hr
  cases h1 : thread (resolveFn f T) (s.getAttr T l.attr).1 l.fns with
  | none => rw [h1] at hr; simp at hr
  | some q =>
    rw [h1] at hr
    simp only [Option.map_some, Option.some.injEq, Prod.mk.injEq] at hr
    obtain ⟨-, rfl, -⟩ := hr
    exact (thread_length (fun _ _ => True) (fun _ _ _ _ _ _ => trivial) l.fns _ _ _ _ h1).1

theorem first_shape {L M L' M' : Type} (ls : List (Logical L M)) (ks : List (Logical L' M')) (hlen : ks.length = ls.length)
    (h : ∀ (i : Nat) x y, ls[i]? = some x → ks[i]? = some y → y.fns.length = x.fns.length) : HasFirst ks ↔ HasFirst ls := by
  cases ls with
  | nil => cases ks with
    | nil => rfl
    | cons k ks => simp at hlen
  | cons l ls => cases ks with
    | nil => simp at hlen
    | cons k ks =>
      have := h 0 l k rfl rfl
      obtain ⟨_, _, _, fl⟩ := l
      obtain ⟨_, _, _, fk⟩ := k
      cases fl <;> cases fk <;> simp_all [HasFirst]

theorem chan_errs {f : Fixture} {T : Table Named} {e : Err} {P : St → Prop} {ok A : Txt → Prop} (h : AttrFact T e P ok A)
    (hi : e.1 ≠ .initialFunction)
    (c : Chan Txt Txt Txt) (hok : ∀ l ∈ c.logicals, ok l.attr ∧ ∀ x ∈ l.fns, ok x.attr) (s s' : St)
    (y : Chan Ptr (Option Nat) Txt) (es : List Err) (hP : P s)
    (hr : resolveChan f T s c = some (s', y, es)) :
    P s' ∧ (e ∈ es ↔ (e = (.channelGeometry, c.id) ∧ (c.geom = [] ∨ Unknown (documentOrder f.geometries) c.geom)) ∨
      (e = (.noFunction, c.id) ∧ c.initial = [] ∧ ¬ HasFirst c.logicals) ∨
      ∃ l ∈ c.logicals, (e = (.logicalAttribute, l.id) ∧ A l.attr) ∨ ∃ x ∈ l.fns, e = (.functionAttribute, x.id) ∧ A x.attr) := by
  unfold resolveChan at hr
  simp only at hr
  cases h1 : thread (resolveLogical f T) s c.logicals with
  | none => rw [h1] at hr; simp at hr
  | some q =>
    obtain ⟨s1, ys, es1⟩ := q
    rw [h1, Option.bind_some] at hr
    cases h2 : resolveInitial ⟨c.id, c.name, f.channelGeometry T c.geom, c.initial, ys⟩ with
    | none => simp only [h2] at hr; simp at hr
    | some r =>
      simp only [h2, Option.map_some, Option.some.injEq, Prod.mk.injEq] at hr
      obtain ⟨rfl, -, rfl⟩ := hr
      obtain ⟨hP1, he1⟩ := thread_errs P e _ c.logicals
        (fun l hl s s' y es hP hr => logical_errs h l (hok l hl) s s' y es hP hr) _ _ _ _ hP h1
      refine ⟨hP1, ?_⟩
      have hshape := thread_length (fun (x : Logical Txt Txt) (y : Logical Ptr Txt) => y.fns.length = x.fns.length)
        (fun x s s' y es hr => fns_shape x s s' y es hr) c.logicals _ _ _ _ h1
      have hfirst := first_shape c.logicals ys hshape.1 hshape.2
      have hg : e ∈ (if f.channelGeometry T c.geom = none then [(Code.channelGeometry, c.id)] else []) ↔
          (e = (.channelGeometry, c.id) ∧ (c.geom = [] ∨ Unknown (documentOrder f.geometries) c.geom)) := by
        have : f.channelGeometry T c.geom = none ↔ (c.geom = [] ∨ Unknown (documentOrder f.geometries) c.geom) := by
          by_cases h0 : c.geom = []
          · rw [h0, C31_channelGeometry_empty]; simp
          · rw [channelGeometry_eq f T _ h0, scan_none_iff]; simp [h0]
        rw [← this]
        by_cases hn : f.channelGeometry T c.geom = none <;> simp [hn]
      have hini : e ∈ r.2 ↔ (e = (.noFunction, c.id) ∧ c.initial = [] ∧ ¬ HasFirst c.logicals) := by
        unfold resolveInitial at h2
        by_cases h0 : c.initial = []
        · simp only [h0, ne_eq, not_true_eq_false, if_false] at h2
          rw [← hfirst]
          match ys, h2 with
          | ⟨_, _, _, fn :: _⟩ :: _, h2 => cases h2; simp [HasFirst]
          | ⟨_, _, _, []⟩ :: _, h2 => cases h2; simp [HasFirst, h0]
          | [], h2 => cases h2; simp [HasFirst, h0]
        · simp only [ne_eq, h0, not_false_eq_true, if_true] at h2
          cases h3 : scanFn c.initial (Chan.toCh (⟨c.id, c.name, f.channelGeometry T c.geom, c.initial, ys⟩ : Chan Ptr Txt Txt)).fnRefs with
          | none => rw [h3] at h2; simp at h2
          | some o =>
            rw [h3] at h2
            simp only [Option.map_some, Option.some.injEq] at h2
            cases o with
            | none =>
              simp only at h2
              subst h2
              simp only [List.mem_singleton, h0, false_and, and_false, iff_false]
              intro he
              rw [he] at hi
              exact hi rfl
            | some i => simp only at h2; subst h2; simp [h0]
      simp only [List.mem_append, hg, he1, hini]
      constructor
      · rintro ((h | h) | h)
        · exact Or.inl h
        · exact Or.inr (Or.inr h)
        · exact Or.inr (Or.inl h)
      · rintro (h | h | h)
        · exact Or.inl (Or.inl h)
        · exact Or.inr h
        · exact Or.inl (Or.inr h)

theorem macro_codes {T : Table Named} {L : Loaded} (e : Err) (hm : e.1 ≠ .macroChannel) (ms : List (Macro Txt)) (s' : Unit)
    (ys : List (Macro (Option Nat))) (es : List Err) (h : thread (resolveMacro T L) () ms = some (s', ys, es)) : e ∉ es := by
  have := (thread_errs (fun _ => True) e (fun _ => False) ms (fun k hk s s' y es _ hr => ?_) () s' ys es trivial h).2
  · simpa using this
  · refine ⟨trivial, ?_⟩
    unfold resolveMacro at hr
    cases h0 : (if k.fn = [] then some none else L.getFunction T k.fn) with
    | none => rw [h0] at hr; simp at hr
    | some fn =>
      rw [h0, Option.bind_some] at hr
      cases h1 : thread (resolveDmxValue T L) () k.dmx with
      | none => rw [h1] at hr; simp at hr
      | some d =>
        obtain ⟨s1, vs, es1⟩ := d
        rw [h1, Option.bind_some] at hr
        cases h2 : thread (resolveVisualValue T L) () k.visual with
        | none => rw [h2] at hr; simp at hr
        | some v =>
          rw [h2] at hr
          simp only [Option.map_some, Option.some.injEq, Prod.mk.injEq] at hr
          obtain ⟨-, -, rfl⟩ := hr
          have := (thread_errs (fun _ => True) e (fun _ => False) k.dmx (fun v hv s s' y es _ hr => ?_) () s1 vs es1 trivial h1).2
          · simpa using this
          · refine ⟨trivial, ?_⟩
            unfold resolveDmxValue at hr
            cases h3 : L.getChannel T v.2 with
            | none => rw [h3] at hr; simp at hr
            | some r =>
              rw [h3] at hr
              simp only [Option.map_some, Option.some.injEq, Prod.mk.injEq] at hr
              obtain ⟨-, -, rfl⟩ := hr
              split
              · simp only [List.mem_singleton, iff_false]
                intro he
                rw [he] at hm
                exact hm rfl
              · simp

theorem mode_errs {f : Fixture} {T : Table Named} {e : Err} {P : St → Prop} {ok A : Txt → Prop} (h : AttrFact T e P ok A)
    (hi : e.1 ≠ .initialFunction) (hm : e.1 ≠ .macroChannel)
    (m : Mode Txt Txt Txt) (hok : ∀ c ∈ m.chans, ∀ l ∈ c.logicals, ok l.attr ∧ ∀ x ∈ l.fns, ok x.attr) (s s' : St)
    (y : Mode Ptr (Option Nat) Txt × Loaded) (es : List Err) (hP : P s)
    (hr : resolveMode f T s m = some (s', y, es)) :
    P s' ∧ (e ∈ es ↔ (e = (.modeGeometry, m.me.id) ∧
        (m.geom = [] ∨ Unknown (f.geometries.map (fun g => match g with | .node n _ => n)) m.geom)) ∨
      ∃ c ∈ m.chans, (e = (.channelGeometry, c.id) ∧ (c.geom = [] ∨ Unknown (documentOrder f.geometries) c.geom)) ∨
      (e = (.noFunction, c.id) ∧ c.initial = [] ∧ ¬ HasFirst c.logicals) ∨
      ∃ l ∈ c.logicals, (e = (.logicalAttribute, l.id) ∧ A l.attr) ∨ ∃ x ∈ l.fns, e = (.functionAttribute, x.id) ∧ A x.attr) := by
  unfold resolveMode at hr
  simp only at hr
  cases h1 : thread (resolveChan f T) s m.chans with
  | none => rw [h1] at hr; simp at hr
  | some q =>
    obtain ⟨s1, cs, es1⟩ := q
    rw [h1, Option.bind_some] at hr
    simp only at hr
    cases h2 : load T (cs.map Chan.toCh) with
    | none => rw [h2] at hr; simp at hr
    | some L =>
      rw [h2, Option.bind_some] at hr
      cases h3 : thread (resolveRel T L) () m.relations with
      | none => rw [h3] at hr; simp at hr
      | some r =>
        rw [h3, Option.bind_some] at hr
        cases h4 : thread (resolveMacro T L) () m.macros with
        | none => rw [h4] at hr; simp at hr
        | some k =>
          obtain ⟨s4, ks, es4⟩ := k
          rw [h4] at hr
          simp only [Option.map_some, Option.some.injEq, Prod.mk.injEq] at hr
          obtain ⟨rfl, -, rfl⟩ := hr
          obtain ⟨hP1, he1⟩ := thread_errs P e _ m.chans
            (fun c hc s s' y es hP hr => chan_errs h hi c (hok c hc) s s' y es hP hr) _ _ _ _ hP h1
          refine ⟨hP1, ?_⟩
          have hmac := macro_codes e hm m.macros s4 ks es4 h4
          have hg : e ∈ (if f.modeGeometry m.geom = none then [(Code.modeGeometry, m.me.id)] else []) ↔
              (e = (.modeGeometry, m.me.id) ∧
                (m.geom = [] ∨ Unknown (f.geometries.map (fun g => match g with | .node n _ => n)) m.geom)) := by
            have : f.modeGeometry m.geom = none ↔
                (m.geom = [] ∨ Unknown (f.geometries.map (fun g => match g with | .node n _ => n)) m.geom) := by
              unfold Fixture.modeGeometry
              by_cases h0 : m.geom = []
              · simp [h0]
              · simp only [h0, if_false, false_or]
                exact scan_none_iff _ _
            rw [← this]
            by_cases hn : f.modeGeometry m.geom = none <;> simp [hn]
          simp only [List.mem_append, hg, he1, hmac, or_false]

theorem master_codes (T : Table Named) (e : Err) (he : e.1 ≠ .modeMaster) (ms : List (Mode Ptr (Option Nat) Txt × Loaded)) (s' : Unit)
    (ys : List (Mode Ptr (Option Nat) Master)) (es : List Err) (h : thread (masterMode T) () ms = some (s', ys, es)) : e ∉ es := by
  have := (thread_errs (fun _ => True) e (fun _ => False) ms (fun k hk s s' y es _ hr => ?_) () s' ys es trivial h).2
  · simpa using this
  · refine ⟨trivial, ?_⟩
    unfold masterMode at hr
    cases h1 : thread (masterChan T k.2) () k.1.chans with
    | none => rw [h1] at hr; simp at hr
    | some q =>
      obtain ⟨s1, cs, es1⟩ := q
      rw [h1] at hr
      simp only [Option.map_some, Option.some.injEq, Prod.mk.injEq] at hr
      obtain ⟨-, -, rfl⟩ := hr
      have := (thread_errs (fun _ => True) e (fun _ => False) k.1.chans (fun c hc s s' y es _ hr => ?_) () s1 cs es1 trivial h1).2
      · simpa using this
      · refine ⟨trivial, ?_⟩
        unfold masterChan at hr
        cases h2 : thread (masterLogical T k.2 c.id) () c.logicals with
        | none => rw [h2] at hr; simp at hr
        | some q =>
          obtain ⟨s2, ls, es2⟩ := q
          rw [h2] at hr
          simp only [Option.map_some, Option.some.injEq, Prod.mk.injEq] at hr
          obtain ⟨-, -, rfl⟩ := hr
          have := (thread_errs (fun _ => True) e (fun _ => False) c.logicals (fun l hl s s' y es _ hr => ?_) () s2 ls es2 trivial h2).2
          · simpa using this
          · refine ⟨trivial, ?_⟩
            unfold masterLogical at hr
            cases h3 : thread (masterFn T k.2 c.id) () l.fns with
            | none => rw [h3] at hr; simp at hr
            | some q =>
              obtain ⟨s3, fs, es3⟩ := q
              rw [h3] at hr
              simp only [Option.map_some, Option.some.injEq, Prod.mk.injEq] at hr
              obtain ⟨-, -, rfl⟩ := hr
              have := (thread_errs (fun _ => True) e (fun _ => False) l.fns (fun x hx s s' y es _ hr => ?_) () s3 fs es3 trivial h3).2
              · simpa using this
              · refine ⟨trivial, ?_⟩
                unfold masterFn at hr
                split at hr
                · simp only [Option.map_some, Option.some.injEq, Prod.mk.injEq] at hr
                  obtain ⟨-, -, rfl⟩ := hr
                  simp
                · cases h4 : k.2.modeMaster T x.master with
                  | none => rw [h4] at hr; simp at hr
                  | some r =>
                    rw [h4] at hr
                    simp only [Option.map_some, Option.some.injEq, Prod.mk.injEq] at hr
                    obtain ⟨-, -, rfl⟩ := hr
                    split
                    · simp only [List.mem_singleton, iff_false]
                      intro hee
                      rw [hee] at he
                      exact he rfl
                    · simp

theorem lastFeature_none (t : Txt) (gs : List (Txt × List Named)) : ∀ acc, lastFeature t acc gs = none ↔
    acc = none ∧ Unknown (gs.flatMap featureRefs) t := by
  induction gs with
  | nil => intro acc; simp [lastFeature, Unknown]
  | cons g gs ih =>
    intro acc
    rw [lastFeature, ih, List.flatMap_cons]
    have : (scan (featureRefs g) t).or acc = none ↔ Unknown (featureRefs g) t ∧ acc = none := by
      rw [← scan_none_iff]
      cases scan (featureRefs g) t <;> simp
    rw [this]
    unfold Unknown
    simp only [List.mem_append]
    constructor
    · rintro ⟨⟨h1, h2⟩, h3⟩
      exact ⟨h2, fun x hx => hx.elim (h1 x) (h3 x)⟩
    · rintro ⟨h1, h2⟩
      exact ⟨⟨fun x hx => h2 x (Or.inl hx), h1⟩, fun x hx => h2 x (Or.inr hx)⟩

theorem attr_errs {T : Table Named} {e : Err} {P : St → Prop} {ok A : Txt → Prop} (h : AttrFact T e P ok A) (groups : List Named)
    (s0 : St) (a : Attr Txt) (hok : a.main ≠ [] → ok a.main) (s s' : St) (y : Attr Ptr) (es : List Err) (hP : s = s0 ∧ P s)
    (hr : resolveAttr T groups s a = some (s', y, es)) :
    (s' = s0 ∧ P s') ∧ (e ∈ es ↔ (e = (.activationGroup, a.me.id) ∧ a.group ≠ [] ∧ Unknown groups a.group) ∨
      (e = (.feature, a.me.id) ∧ a.feature ≠ [] ∧ Unknown (s0.features.flatMap featureRefs) a.feature) ∨
      (e = (.mainAttribute, a.me.id) ∧ a.feature ≠ [] ∧ a.main ≠ [] ∧ A a.main)) := by
  obtain ⟨rfl, hP⟩ := hP
  unfold resolveAttr at hr
  simp only at hr
  have hge : e ∈ (if a.group ≠ [] ∧ opt (scan groups) a.group = none then [(Code.activationGroup, a.me.id)] else []) ↔
      (e = (.activationGroup, a.me.id) ∧ a.group ≠ [] ∧ Unknown groups a.group) := by
    unfold opt
    rw [← scan_none_iff]
    by_cases h0 : a.group = []
    · simp [h0]
    · by_cases h1 : scan groups a.group = none <;> simp [h0, h1]
  by_cases h0 : a.feature = []
  · simp only [h0, if_true, Option.some.injEq, Prod.mk.injEq] at hr
    obtain ⟨rfl, -, rfl⟩ := hr
    refine ⟨⟨rfl, hP⟩, ?_⟩
    rw [hge]
    simp [h0]
  · simp only [h0, if_false] at hr
    cases hm : resolveMain s T a.me.id a.main with
    | none => rw [hm] at hr; simp at hr
    | some m =>
      rw [hm] at hr
      simp only [Option.map_some, Option.some.injEq, Prod.mk.injEq] at hr
      obtain ⟨rfl, -, rfl⟩ := hr
      refine ⟨⟨rfl, hP⟩, ?_⟩
      have hfe : e ∈ (if lastFeature a.feature none s.features = none then [(Code.feature, a.me.id)] else []) ↔
          (e = (.feature, a.me.id) ∧ a.feature ≠ [] ∧ Unknown (s.features.flatMap featureRefs) a.feature) := by
        have := lastFeature_none a.feature s.features none
        simp only [true_and] at this
        rw [← this]
        by_cases h1 : lastFeature a.feature none s.features = none <;> simp [h0, h1]
      have hme : e ∈ m.2 ↔ (e = (.mainAttribute, a.me.id) ∧ a.feature ≠ [] ∧ a.main ≠ [] ∧ A a.main) := by
        unfold resolveMain at hm
        by_cases h1 : a.main = []
        · simp only [h1, if_true, Option.some.injEq] at hm
          subst hm
          simp [h1]
        · simp only [h1, if_false] at hm
          split at hm
          · simp at hm
          · simp only [Option.some.injEq] at hm
            subst hm
            by_cases he : e = (.mainAttribute, a.me.id)
            · have := h.none (Or.inr (Or.inr (by rw [he]))) s a.main hP (hok h1)
              by_cases hn : (s.getAttr T a.main).2 = none
              · simp [hn, he, h0, h1, this.1 hn]
              · simp [hn, h0, h1, mt this.2 hn]
            · simp only [he, false_and, iff_false]
              split <;> simp [he]
      simp only [List.mem_append, hge, hfe, hme, or_assoc]

theorem person_errs (e : Err) (modes : List Named) (ps : List (Nat × Txt)) :
    e ∈ (ps.map (resolvePerson modes)).flatMap Prod.snd ↔ ∃ p ∈ ps, e = (.personality, p.1) ∧ Unknown modes p.2 := by
  simp only [List.mem_flatMap, List.mem_map]
  constructor
  · rintro ⟨_, ⟨p, hp, rfl⟩, he⟩
    refine ⟨p, hp, ?_⟩
    rw [← scan_none_iff]
    unfold resolvePerson at he
    cases h : scan modes p.2 with
    | none => rw [h] at he; simpa using he
    | some x => rw [h] at he; simp at he
  · rintro ⟨p, hp, he, hu⟩
    refine ⟨_, ⟨p, hp, rfl⟩, ?_⟩
    rw [← scan_none_iff] at hu
    unfold resolvePerson
    simp [hu, he]

theorem pool_top {L C M : Type} (F : Fx L C M) :
    F.pool.geometries.map (fun g => match g with | .node n _ => n) = topGeometries F := by
  show (trees F.geos).map _ = F.geos.map _
  induction F.geos with
  | nil => simp [trees]
  | cons g gs ih =>
    obtain ⟨me, m, o, k⟩ := g
    simp only [trees, List.map_cons, ih]

theorem all_errs {T : Table Named} {n : Nat} {W : Doc} {F' : Mem} {errs : List Err} (hr : resolve T n W = some (F', errs))
    {e : Err} {P : St → Prop} {ok A : Txt → Prop} (h : AttrFact T e P ok A)
    (hP : P ⟨W.pool.attrState T, n, [], W.features⟩)
    (hok : (∀ l ∈ logicals W, ok l.attr) ∧ (∀ x ∈ functions W, ok x.attr) ∧ ∀ a ∈ W.attrs, a.main ≠ [] → ok a.main)
    (hi : e.1 ≠ .initialFunction) (hm : e.1 ≠ .macroChannel) (hma : e.1 ≠ .modeMaster) :
    e ∈ errs ↔
      ((∃ g ∈ nodes W.geos, e = (.geometryModel, g.1.id) ∧ g.2.1 ≠ [] ∧ Unknown W.models g.2.1) ∨
       (∃ g ∈ nodes W.geos, ∃ t, e = (.geometryReference, g.1.id) ∧ g.2.2 = .reference t ∧ Unknown (geometries W) t)) ∨
      (∃ m ∈ W.modes, (e = (.modeGeometry, m.me.id) ∧ (m.geom = [] ∨ Unknown (topGeometries W) m.geom)) ∨
        ∃ c ∈ m.chans, (e = (.channelGeometry, c.id) ∧ (c.geom = [] ∨ Unknown (geometries W) c.geom)) ∨
        (e = (.noFunction, c.id) ∧ c.initial = [] ∧ ¬ HasFirst c.logicals) ∨
        ∃ l ∈ c.logicals, (e = (.logicalAttribute, l.id) ∧ A l.attr) ∨ ∃ x ∈ l.fns, e = (.functionAttribute, x.id) ∧ A x.attr) ∨
      (∃ p ∈ W.persons, e = (.personality, p.1) ∧ Unknown (W.modes.map (·.me)) p.2) ∨
      (∃ a ∈ W.attrs, (e = (.activationGroup, a.me.id) ∧ a.group ≠ [] ∧ Unknown W.groups a.group) ∨
        (e = (.feature, a.me.id) ∧ a.feature ≠ [] ∧ Unknown (features F') a.feature) ∨
        (e = (.mainAttribute, a.me.id) ∧ a.feature ≠ [] ∧ a.main ≠ [] ∧ A a.main)) := by
  unfold resolve at hr
  simp only at hr
  cases h1 : thread (resolveMode W.pool T) ⟨W.pool.attrState T, n, [], W.features⟩ W.modes with
  | none => rw [h1] at hr; simp at hr
  | some ms =>
    obtain ⟨s1, ys1, es1⟩ := ms
    rw [h1, Option.bind_some] at hr
    cases h2 : thread (masterMode T) () ys1 with
    | none => simp only [h2] at hr; simp at hr
    | some mm =>
      obtain ⟨s2, ys2, es2⟩ := mm
      simp only [h2, Option.bind_some] at hr
      cases h3 : thread (resolveAttr T W.groups) s1 W.attrs with
      | none => simp only [h3] at hr; simp at hr
      | some as =>
        obtain ⟨s3, ys3, es3⟩ := as
        simp only [h3, Option.map_some, Option.some.injEq, Prod.mk.injEq] at hr
        obtain ⟨rfl, rfl⟩ := hr
        obtain ⟨hP1, he1⟩ := thread_errs P e _ W.modes
          (fun m hm' s s' y es hP hr => mode_errs h hi hm m
            (fun c hc l hl => ⟨hok.1 l (by unfold logicals channels; simp only [List.mem_flatMap]; exact ⟨c, ⟨m, hm', hc⟩, hl⟩),
              fun x hx => hok.2.1 x (by
                unfold functions logicals channels; simp only [List.mem_flatMap]; exact ⟨l, ⟨c, ⟨m, hm', hc⟩, hl⟩, hx⟩)⟩)
            s s' y es hP hr) _ _ _ _ hP h1
        have he2 := master_codes T e hma ys1 s2 ys2 es2 h2
        have he3 := (thread_errs (fun s => s = s1 ∧ P s) e _ W.attrs
          (fun a ha s s' y es hP hr => attr_errs h W.groups s1 a (hok.2.2 a ha) s s' y es hP hr) _ _ _ _ ⟨rfl, hP1⟩ h3).2
        have hg := geo_errs W.pool T e W.geos
        have htop : W.pool.geometries.map (fun g => match g with | .node n _ => n) = topGeometries W := pool_top W
        rw [pool_geos] at hg
        simp only [List.mem_append, hg, he1, he2, he3, person_errs, or_false, pool_geos, htop, or_assoc]
        rfl

end Verif.Link
