import Verif.Link.Reported

/-!
# C70: when links are resolved and written without undefined behaviour
-/

namespace Verif.Link

open Lookup Lookup.Spec Spec

/-! ## Lemmas -/

theorem thread_total {σ α β : Type} {g : σ → α → Option (σ × β × List Err)} (P : σ → Prop) (Q : α → β → Prop) (l : List α)
    (hg : ∀ x ∈ l, ∀ s, P s → ∃ s' y es, g s x = some (s', y, es) ∧ P s' ∧ Q x y) :
    ∀ s, P s → ∃ s' ys es, thread g s l = some (s', ys, es) ∧ P s' ∧ ys.length = l.length ∧
      ∀ (k : Nat) x y, l[k]? = some x → ys[k]? = some y → Q x y := by
  induction l with
  | nil => intro s hP; exact ⟨s, [], [], rfl, hP, rfl, by simp⟩
  | cons x l ih =>
    intro s hP
    obtain ⟨s1, y, es1, h1, hP1, hQ⟩ := hg x (List.mem_cons_self) s hP
    obtain ⟨s2, ys, es2, h2, hP2, hl, hQs⟩ := ih (fun z hz => hg z (List.mem_cons_of_mem _ hz)) s1 hP1
    refine ⟨s2, y :: ys, es1 ++ es2, by rw [thread, h1, Option.bind_some, h2]; rfl, hP2, by simp [hl], ?_⟩
    intro k a b ha hb
    cases k with
    | zero =>
      simp only [List.getElem?_cons_zero, Option.some.injEq] at ha hb
      subst ha hb
      exact hQ
    | succ k =>
      simp only [List.getElem?_cons_succ] at ha hb
      exact hQs k a b ha hb

/-- For every result there is an element it comes from. -/
theorem from_index {α β : Type} {Q : α → β → Prop} {l : List α} {ys : List β} (hl : ys.length = l.length)
    (h : ∀ (k : Nat) x y, l[k]? = some x → ys[k]? = some y → Q x y) : ∀ y ∈ ys, ∃ x ∈ l, Q x y := by
  intro y hy
  obtain ⟨k, hk, rfl⟩ := List.mem_iff_getElem.1 hy
  exact ⟨l[k]'(hl ▸ hk), List.getElem_mem _, h k _ _ (List.getElem?_eq_getElem _) (List.getElem?_eq_getElem hk)⟩

theorem mapO_some {α β : Type} {g : α → Option β} (l : List α) : (mapO g l).isSome = true ↔ ∀ x ∈ l, (g x).isSome = true := by
  induction l with
  | nil => simp [mapO]
  | cons x l ih =>
    rw [mapO]
    cases h1 : g x with
    | none => simp [h1]
    | some y =>
      rw [Option.bind_some, Option.isSome_map, ih]
      simp [h1]

/-! ### Names of channels -/

/-- The functions of a channel. -/
def chFns (c : Ch) : List Nat := c.logicals.flatMap (fun l => l.fns.map Fn.id)

theorem fnRefs_ids (c : Ch) : c.fnRefs.map (fun p => p.2.id) = chFns c := by
  unfold Ch.fnRefs chFns
  rw [List.map_flatMap]
  refine congrArg (fun h => List.flatMap h c.logicals) (funext fun l => ?_)
  rw [List.map_map]
  show List.map (Fn.id ∘ Prod.fst) l.fns.zipIdx = _
  rw [← List.map_map, List.zipIdx_map_fst]

theorem fnRefs_some {c : Ch} (h : c.getName ≠ none) : ∀ p ∈ c.fnRefs, p.1 ≠ none := by
  intro p hp
  unfold Ch.fnRefs at hp
  simp only [List.mem_flatMap, List.mem_map] at hp
  obtain ⟨l, -, q, -, rfl⟩ := hp
  show fnRef c l q.2 q.1 ≠ none
  unfold fnRef
  exact map_ne_none h

theorem scanCh_total (ref : Txt) (l : List Ch) (h : ∀ c ∈ l, c.getName ≠ none) :
    ∃ r, scanCh ref l = some r ∧ ToId (l.map Ch.id) r := by
  induction l with
  | nil => exact ⟨none, rfl, by intro i hi; cases hi⟩
  | cons c l ih =>
    obtain ⟨r, hr, hid⟩ := ih (fun c hc => h c (List.mem_cons_of_mem _ hc))
    rw [scanCh]
    cases hn : c.getName with
    | none => exact absurd hn (h c List.mem_cons_self)
    | some k =>
      rw [Option.bind_some]
      split
      · exact ⟨_, rfl, by intro i hi; cases hi; simp⟩
      · exact ⟨r, hr, fun i hi => by simp only [List.map_cons, List.mem_cons]; exact Or.inr (hid i hi)⟩

theorem scanFn_total (ref : Txt) (l : List (Option Txt × Fn)) (h : ∀ p ∈ l, p.1 ≠ none) :
    ∃ r, scanFn ref l = some r ∧ ToId (l.map (fun p => p.2.id)) r := by
  induction l with
  | nil => exact ⟨none, rfl, by intro i hi; cases hi⟩
  | cons p l ih =>
    obtain ⟨r, hr, hid⟩ := ih (fun c hc => h c (List.mem_cons_of_mem _ hc))
    rw [scanFn]
    cases hn : p.1 with
    | none => exact absurd hn (h p List.mem_cons_self)
    | some k =>
      rw [Option.bind_some]
      split
      · exact ⟨_, rfl, by intro i hi; cases hi; simp⟩
      · exact ⟨r, hr, fun i hi => by simp only [List.map_cons, List.mem_cons]; exact Or.inr (hid i hi)⟩

theorem chanKeys_total (l : List Ch) (h : ∀ c ∈ l, c.getName ≠ none) : ∃ ks, chanKeys l = some ks ∧ ks.map Named.id = l.map Ch.id := by
  induction l with
  | nil => exact ⟨[], rfl, rfl⟩
  | cons c l ih =>
    obtain ⟨ks, hk, hi⟩ := ih (fun c hc => h c (List.mem_cons_of_mem _ hc))
    cases hn : c.getName with
    | none => exact absurd hn (h c List.mem_cons_self)
    | some k => exact ⟨⟨c.id, k⟩ :: ks, by rw [chanKeys, hn, Option.bind_some, hk]; rfl, by simp [hi]⟩

theorem fnKeys_total (l : List (Option Txt × Fn)) (h : ∀ p ∈ l, p.1 ≠ none) :
    ∃ ks, fnKeys l = some ks ∧ ks.map Named.id = l.map (fun p => p.2.id) := by
  induction l with
  | nil => exact ⟨[], rfl, rfl⟩
  | cons c l ih =>
    obtain ⟨ks, hk, hi⟩ := ih (fun c hc => h c (List.mem_cons_of_mem _ hc))
    cases hn : c.1 with
    | none => exact absurd hn (h c List.mem_cons_self)
    | some k => exact ⟨⟨c.2.id, k⟩ :: ks, by rw [fnKeys, hn, Option.bind_some, hk]; rfl, by simp [hi]⟩

theorem nameFns_ids (l : List Fn) : ∀ n, (nameFns n l).map Fn.id = l.map Fn.id := by
  induction l with
  | nil => intro n; rfl
  | cons f l ih =>
    intro n
    rw [nameFns]
    split
    · split <;> simp [ih]
    · simp [ih]

theorem nameCh_id (c : Ch) : (nameCh c).id = c.id := by
  unfold nameCh
  split
  · rfl
  · split <;> rfl

theorem nameLc_fns (l : Lc) : (nameLc l).fns.map Fn.id = l.fns.map Fn.id := by
  unfold nameLc
  split
  · rfl
  · exact nameFns_ids _ _

theorem nameCh_fns (c : Ch) : chFns (nameCh c) = chFns c := by
  have : (c.logicals.map nameLc).flatMap (fun l => l.fns.map Fn.id) = c.logicals.flatMap (fun l => l.fns.map Fn.id) := by
    rw [List.flatMap_map]
    exact congrArg (fun h => List.flatMap h c.logicals) (funext fun l => nameLc_fns l)
  unfold chFns nameCh
  split
  · rfl
  · split <;> exact this

theorem lit_us : lit "_" = [95] := by decide

theorem nameCh_getName {c : Ch} (h : c.getName ≠ none) : (nameCh c).getName ≠ none := by
  unfold nameCh
  split
  · exact h
  · split
    · rename_i hnone
      unfold Ch.getName at h ⊢
      simp only
      split
      · simp
      · rename_i h0
        simp only [h0, if_false] at h
        cases hl : c.logicals with
        | nil => simp
        | cons l ls =>
          rw [hl] at h hnone
          simp only [List.findSome?_cons] at hnone
          cases ha : l.attr with
          | none => simp [ha] at h
          | some a => simp [ha] at hnone
    · unfold Ch.getName
      rw [if_pos]
      · simp
      · simp [lit_us]

/-- What is known about the lookups in a mode whose channels have names. -/
structure Lookups (T : Table Named) (L : Loaded) (chs fns : List Nat) : Prop where
  chan : ∀ ref, ∃ r, L.getChannel T ref = some r ∧ ToId chs r
  fn : ∀ ref, ∃ r, L.getFunction T ref = some r ∧ ToId fns r

theorem toId_scan (l : List Named) (ref : Txt) : ToId (l.map Named.id) ((scan l ref).map Named.id) := by
  intro i hi
  cases hs : scan l ref with
  | none => rw [hs] at hi; cases hi
  | some x =>
    rw [hs] at hi
    cases hi
    exact List.mem_map.2 ⟨x, List.mem_of_find?_eq_some hs, rfl⟩

theorem flatMap_ids (K : List Ch) : (K.flatMap Ch.fnRefs).map (fun p => p.2.id) = K.flatMap chFns := by
  rw [List.map_flatMap]
  exact congrArg (fun h => List.flatMap h K) (funext fun c => fnRefs_ids c)

theorem load_total (T : Table Named) (K : List Ch) (h : ∀ c ∈ K, c.getName ≠ none) :
    ∃ L, load T K = some L ∧ Lookups T L (K.map Ch.id) (K.flatMap chFns) := by
  have hn : ∀ c ∈ K.map nameCh, c.getName ≠ none := by
    intro c hc
    obtain ⟨d, hd, rfl⟩ := List.mem_map.1 hc
    exact nameCh_getName (h d hd)
  have hf : ∀ (M : List Ch), (∀ c ∈ M, c.getName ≠ none) → ∀ p ∈ M.flatMap Ch.fnRefs, p.1 ≠ none := by
    intro M hM p hp
    obtain ⟨c, hc, hpc⟩ := List.mem_flatMap.1 hp
    exact fnRefs_some (hM c hc) p hpc
  have e1 : (K.map nameCh).map Ch.id = K.map Ch.id := by
    rw [List.map_map]
    exact congrArg (fun h => List.map h K) (funext fun c => nameCh_id c)
  have e2 : (K.map nameCh).flatMap chFns = K.flatMap chFns := by
    rw [List.flatMap_map]
    exact congrArg (fun h => List.flatMap h K) (funext fun c => nameCh_fns c)
  have hsc : ∀ ref, ∃ r, scanCh ref (K.map nameCh) = some r ∧ ToId (K.map Ch.id) r := by
    intro ref
    rw [← e1]
    exact scanCh_total ref _ hn
  have hsf : ∀ ref, ∃ r, scanFn ref ((K.map nameCh).flatMap Ch.fnRefs) = some r ∧ ToId (K.flatMap chFns) r := by
    intro ref
    rw [← e2, ← flatMap_ids]
    exact scanFn_total ref _ (hf _ hn)
  unfold load buildModeIndexes
  by_cases hs : K.length < 64
  · rw [if_pos hs]
    exact ⟨_, rfl, fun ref => by unfold Loaded.getChannel; rw [if_neg (by simp)]; exact hsc ref,
      fun ref => by unfold Loaded.getFunction; rw [if_neg (by simp)]; exact hsf ref⟩
  · rw [if_neg hs]
    obtain ⟨ck, h1, i1⟩ := chanKeys_total K h
    obtain ⟨fk, h2, i2⟩ := fnKeys_total _ (hf K h)
    rw [h1, Option.bind_some, h2]
    refine ⟨_, rfl, fun ref => ?_, fun ref => ?_⟩
    · unfold Loaded.getChannel
      split
      · refine ⟨_, rfl, ?_⟩
        show ToId _ ((T.find (buildIndex T ck) ref).map Named.id)
        rw [find_buildIndex, ← i1]
        exact toId_scan _ _
      · exact hsc ref
    · unfold Loaded.getFunction
      split
      · refine ⟨_, rfl, ?_⟩
        show ToId _ ((T.find (buildIndex T fk) ref).map Named.id)
        rw [find_buildIndex, ← flatMap_ids, ← i2]
        exact toId_scan _ _
      · exact hsf ref

/-! ### Attributes -/

namespace Spec

/-- The text leads to an attribute, of the description or "NoFeature". -/
def Leads (as : List Named) (t : Txt) : Prop :=
  t = [] ∨ SameName t noFeatureText ∨ (∃ a ∈ as, SameName a.ref t) ∨ ∃ a ∈ as, SameName a.ref noFeatureText

end Spec

/-- The state of the attribute lookup. -/
def Sound (T : Table Named) (as : List Named) (s : St) : Prop :=
  AttrInv T as s.attrs ∧ ((∃ a ∈ as, SameName a.ref noFeatureText) → s.attrs.noFeature ≠ none)

theorem getAttr_attrs (s : St) (T : Table Named) (t : Txt) : (s.getAttr T t).1.attrs = (s.attrs.getByRef T s.next t).1 ∧
    (s.getAttr T t).2 = (s.attrs.getByRef T s.next t).2 := by
  unfold St.getAttr
  simp only
  split <;> exact ⟨rfl, rfl⟩

theorem getByRef_noFeature (s : AttrState) (T : Table Named) (n : Nat) (t : Txt) (h : s.noFeature ≠ none) :
    (s.getByRef T n t).1.noFeature ≠ none := by
  have hneed : (s.needNoFeature n).1.noFeature ≠ none := by
    unfold AttrState.needNoFeature
    split
    · exact h
    · simp [AttrState.createNoFeature]
  unfold AttrState.getByRef
  split
  · exact hneed
  · split
    · exact h
    · split
      · exact hneed
      · exact h

theorem getAttr_total (T : Table Named) (as : List Named) (s : St) (t : Txt) (h : Sound T as s) (ht : Leads as t) :
    Sound T as (s.getAttr T t).1 ∧ (s.getAttr T t).2 ≠ none := by
  obtain ⟨e1, e2⟩ := getAttr_attrs s T t
  refine ⟨⟨?_, ?_⟩, ?_⟩
  · rw [e1]
    exact (attr_step T T as s.attrs s.attrs h.1 h.1 rfl s.next t).2.2.1
  · rw [e1]
    intro hn
    exact getByRef_noFeature _ T _ _ (h.2 hn)
  · rw [e2]
    have hneed : (s.attrs.needNoFeature s.next).2 ≠ none := by
      unfold AttrState.needNoFeature
      split <;> simp
    unfold AttrState.getByRef
    split
    · exact hneed
    · rename_i hne
      have hnot : eqNoCase t noFeatureText = false := by simpa using hne
      split
      · simp
      · rename_i hsrch
        rw [attr_search T as s.attrs h.1 t hnot, scan_none_iff] at hsrch
        split
        · exact hneed
        · rename_i h0
          rcases ht with ht | ht | ⟨a, ha, hs⟩ | hno
          · exact absurd ht h0
          · rw [(eqNoCase_iff _ _).2 ht] at hnot; cases hnot
          · exact absurd hs (hsrch a ha)
          · exact h.2 hno

/-! ### Modes -/

theorem resolveFn_total {f : Fixture} {T : Table Named} {as : List Named} (x : Func Txt Txt) (hx : Leads as x.attr) (s : St)
    (h : Sound T as s) : ∃ s' y es, resolveFn f T s x = some (s', y, es) ∧ Sound T as s' ∧ True :=
  ⟨_, _, _, rfl, (getAttr_total T as s x.attr h hx).1, trivial⟩

theorem resolveLogical_total {f : Fixture} {T : Table Named} {as : List Named} (x : Logical Txt Txt) (hx : Leads as x.attr)
    (hf : ∀ y ∈ x.fns, Leads as y.attr) (s : St) (h : Sound T as s) :
    ∃ s' y es, resolveLogical f T s x = some (s', y, es) ∧ Sound T as s' ∧ y.attr ≠ none := by
  obtain ⟨h1, h2⟩ := getAttr_total T as s x.attr h hx
  obtain ⟨s', ys, es, ht, hs, -⟩ := thread_total (g := resolveFn f T) (Sound T as) (fun _ _ => True) x.fns
    (fun y hy s hs => resolveFn_total y (hf y hy) s hs) _ h1
  refine ⟨s', _, _, by unfold resolveLogical; simp only; rw [ht]; rfl, hs, h2⟩

theorem getName_logicals {c : Ch} (h : ∀ l ∈ c.logicals, l.attr ≠ none) : c.getName ≠ none := by
  unfold Ch.getName
  split
  · simp
  · cases hl : c.logicals with
    | nil => simp
    | cons l ls => exact map_ne_none (h l (by rw [hl]; exact List.mem_cons_self))

theorem resolveChan_total {f : Fixture} {T : Table Named} {as : List Named} (x : Chan Txt Txt Txt)
    (hx : ∀ l ∈ x.logicals, Leads as l.attr ∧ ∀ y ∈ l.fns, Leads as y.attr) (s : St) (h : Sound T as s) :
    ∃ s' y es, resolveChan f T s x = some (s', y, es) ∧ Sound T as s' ∧ (y.toCh.getName ≠ none ∧ ToId (chFns y.toCh) y.initial) := by
  obtain ⟨s', ys, es, ht, hs, hl, hq⟩ := thread_total (g := resolveLogical f T) (Sound T as) (fun _ y => y.attr ≠ none) x.logicals
    (fun y hy s hs => resolveLogical_total y (hx y hy).1 (hx y hy).2 s hs) s h
  have hattr : ∀ l ∈ ys, l.attr ≠ none := fun y hy => (from_index hl hq y hy).choose_spec.2
  have hname : ∀ (C : Type) (nm : Txt) (g : Ptr) (i : C), (Chan.toCh (⟨x.id, nm, g, i, ys⟩ : Chan Ptr C Txt)).getName ≠ none := by
    intro C nm g i
    refine getName_logicals (fun l hl => ?_)
    simp only [Chan.toCh, List.mem_map] at hl
    obtain ⟨k, hk, rfl⟩ := hl
    exact map_ne_none (hattr k hk)
  have hini : ∃ i es, resolveInitial ⟨x.id, x.name, f.channelGeometry T x.geom, x.initial, ys⟩ = some (i, es) ∧
      ToId (chFns (Chan.toCh (⟨x.id, x.name, f.channelGeometry T x.geom, i, ys⟩ : Chan Ptr (Option Nat) Txt))) i := by
    unfold resolveInitial
    simp only
    split
    · obtain ⟨r, hr, hid⟩ := scanFn_total x.initial
        (Chan.toCh (⟨x.id, x.name, f.channelGeometry T x.geom, x.initial, ys⟩ : Chan Ptr Txt Txt)).fnRefs
        (fnRefs_some (hname _ _ _ _))
      rw [fnRefs_ids] at hid
      rw [hr]
      cases r with
      | none => exact ⟨none, _, rfl, by intro i hi; cases hi⟩
      | some i => exact ⟨some i, _, rfl, hid⟩
    · match ys with
      | ⟨_, _, _, fn :: _⟩ :: _ =>
        refine ⟨_, _, rfl, ?_⟩
        intro i hi
        cases hi
        simp [chFns, Chan.toCh, Logical.toLc, Func.toFn]
      | ⟨_, _, _, []⟩ :: _ => exact ⟨_, _, rfl, by intro i hi; cases hi⟩
      | [] => exact ⟨_, _, rfl, by intro i hi; cases hi⟩
  obtain ⟨i, es2, hi, hid⟩ := hini
  exact ⟨s', _, _, by unfold resolveChan; simp only; rw [ht, Option.bind_some, hi]; rfl, hs, hname _ _ _ _, hid⟩

theorem toFn_nameFuncs {M : Type} (l : List (Func Ptr M)) : ∀ n, (nameFuncs n l).map Func.toFn = nameFns n (l.map Func.toFn) := by
  induction l with
  | nil => intro n; rfl
  | cons f l ih =>
    intro n
    rw [nameFuncs, List.map_cons, nameFns]
    show _ = if f.name = [] then _ else _
    split
    · cases ha : f.attr with
      | none => simp only [List.map_cons, ih]; simp [Func.toFn, ha]
      | some a => simp only [List.map_cons, ih]; simp [Func.toFn, ha]
    · simp only [List.map_cons, ih]

theorem toLc_nameLogical {M : Type} (l : Logical Ptr M) : (nameLogical l).toLc = nameLc l.toLc := by
  unfold nameLogical nameLc
  cases ha : l.attr with
  | none => simp [Logical.toLc, ha]
  | some a => simp [Logical.toLc, ha, toFn_nameFuncs]

theorem toCh_nameChan {C M : Type} (c : Chan Ptr C M) : (nameChan c).toCh = nameCh c.toCh := by
  have hl : (c.logicals.map nameLogical).map Logical.toLc = (c.logicals.map Logical.toLc).map nameLc := by
    simp only [List.map_map]
    exact congrArg (fun h => List.map h c.logicals) (funext fun l => toLc_nameLogical l)
  have hf : (c.logicals.map Logical.toLc).findSome? (·.attr) = (c.logicals.findSome? (·.attr)).map Named.ref := by
    induction c.logicals with
    | nil => rfl
    | cons l ls ih =>
      simp only [List.map_cons, List.findSome?_cons, ih]
      cases ha : l.attr <;> simp [Logical.toLc, ha]
  unfold nameChan nameCh
  cases hg : c.geom with
  | none => simp [Chan.toCh, hg]
  | some g =>
    simp only [Chan.toCh, hg, Option.map_some, hf]
    cases h1 : c.logicals.findSome? (·.attr) with
    | none => simp only [Option.map_none, hl]; rfl
    | some a => simp only [Option.map_some, hl]

/-- The functions of a mode. -/
def fnIds {L C M : Type} (m : Mode L C M) : List Nat := m.chans.flatMap fnsOf

/-- The channels of a mode. -/
def chIds {L C M : Type} (m : Mode L C M) : List Nat := m.chans.map (·.id)

theorem chFns_toCh {C M : Type} (c : Chan Ptr C M) : chFns c.toCh = fnsOf c := by
  unfold chFns fnsOf Chan.toCh
  rw [List.flatMap_map]
  refine congrArg (fun h => List.flatMap h c.logicals) (funext fun l => ?_)
  simp only [Logical.toLc, List.map_map]
  rfl

/-- What is known about a mode after its links were resolved. -/
structure ModeFacts {M : Type} (m : Mode Ptr (Option Nat) M) : Prop where
  names : ∀ c ∈ m.chans, c.toCh.getName ≠ none
  initial : ∀ c ∈ m.chans, ToId (fnIds m) c.initial
  relations : ∀ r ∈ m.relations, ToId (chIds m) r.master ∧ ToId (fnIds m) r.slave
  macros : ∀ k ∈ m.macros, ToId (fnIds m) k.fn ∧ (∀ v ∈ k.dmx, ToId (chIds m) v.2) ∧ ∀ v ∈ k.visual, ToId (fnIds m) v

theorem resolveMacro_total {T : Table Named} {L : Loaded} {chs fns : List Nat} (h : Lookups T L chs fns) (k : Macro Txt) :
    ∃ y es, resolveMacro T L () k = some ((), y, es) ∧ ToId fns y.fn ∧ (∀ v ∈ y.dmx, ToId chs v.2) ∧ ∀ v ∈ y.visual, ToId fns v := by
  have h0 : ∃ r, (if k.fn = [] then some none else L.getFunction T k.fn) = some r ∧ ToId fns r := by
    split
    · exact ⟨none, rfl, by intro i hi; cases hi⟩
    · exact h.fn k.fn
  obtain ⟨r, hr, hid⟩ := h0
  obtain ⟨s1, d, es1, hd, -, hl1, hq1⟩ := thread_total (g := resolveDmxValue T L) (fun _ => True) (fun _ y => ToId chs y.2) k.dmx
    (fun v _ s _ => by
      obtain ⟨r, hr, hid⟩ := h.chan v.2
      exact ⟨_, _, _, by unfold resolveDmxValue; rw [hr]; rfl, trivial, hid⟩) () trivial
  obtain ⟨s2, vs, es2, hv, -, hl2, hq2⟩ := thread_total (g := resolveVisualValue T L) (fun _ => True) (fun _ y => ToId fns y) k.visual
    (fun v _ s _ => by
      obtain ⟨r, hr, hid⟩ := h.fn v
      exact ⟨_, _, _, by unfold resolveVisualValue; rw [hr]; rfl, trivial, hid⟩) () trivial
  refine ⟨⟨r, d, vs⟩, es1, by unfold resolveMacro; rw [hr, Option.bind_some, hd, Option.bind_some, hv]; rfl, hid, ?_, ?_⟩
  · intro v hv; exact (from_index hl1 hq1 v hv).choose_spec.2
  · intro v hv; exact (from_index hl2 hq2 v hv).choose_spec.2

theorem resolveMode_total {f : Fixture} {T : Table Named} {as : List Named} (m : Mode Txt Txt Txt)
    (hx : ∀ c ∈ m.chans, ∀ l ∈ c.logicals, Leads as l.attr ∧ ∀ y ∈ l.fns, Leads as y.attr) (s : St) (h : Sound T as s) :
    ∃ s' y es, resolveMode f T s m = some (s', y, es) ∧ Sound T as s' ∧ (ModeFacts y.1 ∧ Lookups T y.2 (chIds y.1) (fnIds y.1)) := by
  obtain ⟨s', ys, es, ht, hs, hl, hq⟩ := thread_total (g := resolveChan f T) (Sound T as)
    (fun _ y => y.toCh.getName ≠ none ∧ ToId (chFns y.toCh) y.initial) m.chans
    (fun c hc s hs => resolveChan_total c (hx c hc) s hs) s h
  have hfacts : ∀ c ∈ ys, c.toCh.getName ≠ none ∧ ToId (chFns c.toCh) c.initial := fun y hy => (from_index hl hq y hy).choose_spec.2
  obtain ⟨L, hL, hlook⟩ := load_total T (ys.map Chan.toCh) (by
    intro c hc
    obtain ⟨d, hd, rfl⟩ := List.mem_map.1 hc
    exact (hfacts d hd).1)
  have e1 : (ys.map Chan.toCh).map Ch.id = (ys.map nameChan).map (·.id) := by
    simp only [List.map_map]
    refine congrArg (fun h => List.map h ys) (funext fun c => ?_)
    show c.id = (nameChan c).id
    have := congrArg Ch.id (toCh_nameChan c)
    rw [nameCh_id] at this
    exact this.symm
  have e3 : ∀ c : Chan Ptr (Option Nat) Txt, fnsOf (nameChan c) = fnsOf c := by
    intro c
    rw [← chFns_toCh, toCh_nameChan, nameCh_fns, chFns_toCh]
  have e2 : (ys.map Chan.toCh).flatMap chFns = (ys.map nameChan).flatMap fnsOf := by
    rw [List.flatMap_map, List.flatMap_map]
    exact congrArg (fun h => List.flatMap h ys) (funext fun c => by rw [chFns_toCh, e3])
  rw [e1, e2] at hlook
  obtain ⟨s2, rs, es2, hr, -, hl2, hq2⟩ := thread_total (g := resolveRel T L) (fun _ => True)
    (fun _ y => ToId ((ys.map nameChan).map (·.id)) y.master ∧ ToId ((ys.map nameChan).flatMap fnsOf) y.slave) m.relations
    (fun v _ s _ => by
      obtain ⟨r, hr, hid⟩ := hlook.chan v.master
      obtain ⟨r2, hr2, hid2⟩ := hlook.fn v.slave
      exact ⟨_, _, _, by unfold resolveRel; rw [hr, Option.bind_some, hr2]; rfl, trivial, hid, hid2⟩) () trivial
  obtain ⟨s3, ks, es3, hk, -, hl3, hq3⟩ := thread_total (g := resolveMacro T L) (fun _ => True)
    (fun _ y => ToId ((ys.map nameChan).flatMap fnsOf) y.fn ∧ (∀ v ∈ y.dmx, ToId ((ys.map nameChan).map (·.id)) v.2) ∧
      ∀ v ∈ y.visual, ToId ((ys.map nameChan).flatMap fnsOf) v) m.macros
    (fun v _ s _ => by
      obtain ⟨y, es, hy, hh⟩ := resolveMacro_total hlook v
      exact ⟨_, _, _, hy, trivial, hh⟩) () trivial
  refine ⟨s', (⟨m.me, f.modeGeometry m.geom, ys.map nameChan, rs, ks⟩, L), _, by
    unfold resolveMode; simp only; rw [ht, Option.bind_some, hL, Option.bind_some, hr, Option.bind_some, hk]; rfl, hs, ?_, hlook⟩
  refine ⟨?_, ?_, ?_, ?_⟩
  · intro c hc
    obtain ⟨d, hd, rfl⟩ := List.mem_map.1 hc
    rw [toCh_nameChan]
    exact nameCh_getName (hfacts d hd).1
  · intro c hc i hi
    obtain ⟨d, hd, rfl⟩ := List.mem_map.1 hc
    have hin : (nameChan d).initial = d.initial := by
      unfold nameChan; split
      · rfl
      · split <;> rfl
    rw [hin] at hi
    have := (hfacts d hd).2 i hi
    rw [chFns_toCh, ← e3] at this
    exact List.mem_flatMap.2 ⟨_, hc, this⟩
  · intro r hr; exact (from_index hl2 hq2 r hr).choose_spec.2
  · intro k hk; exact (from_index hl3 hq3 k hk).choose_spec.2

/-! ### Mode masters -/

/-- The mode master leads to a channel or function of the mode. -/
def MasterIn (chs fns : List Nat) (m : Master) : Prop := (∀ i, m = .channel i → i ∈ chs) ∧ ∀ i, m = .function i → i ∈ fns

theorem map_of_index {α β γ : Type} {u : α → γ} {v : β → γ} {l : List α} {ys : List β} (hl : ys.length = l.length)
    (h : ∀ (k : Nat) x y, l[k]? = some x → ys[k]? = some y → v y = u x) : ys.map v = l.map u := by
  refine List.ext_getElem (by simp [hl]) ?_
  intro k h1 h2
  simp only [List.length_map] at h1 h2
  simp only [List.getElem_map]
  exact h k _ _ (List.getElem?_eq_getElem h2) (List.getElem?_eq_getElem h1)

theorem masterFn_total {T : Table Named} {L : Loaded} {chs fns : List Nat} (h : Lookups T L chs fns) (c : Nat) (x : Func Ptr Txt) :
    ∃ s' y es, masterFn T L c () x = some (s', y, es) ∧ True ∧ (y.toFn = x.toFn ∧ MasterIn chs fns y.master) := by
  unfold masterFn
  split
  · exact ⟨_, _, _, rfl, trivial, rfl, by constructor <;> intro i hi <;> cases hi⟩
  · have : ∃ r, L.modeMaster T x.master = some r ∧ MasterIn chs fns r := by
      unfold Loaded.modeMaster
      obtain ⟨r, hr, hid⟩ := h.chan x.master
      obtain ⟨q, hq, hiq⟩ := h.fn x.master
      rw [hr, Option.bind_some]
      cases r with
      | some i =>
        exact ⟨_, rfl, by intro j hj; cases hj; exact hid i rfl, by intro j hj; cases hj⟩
      | none =>
        simp only [hq, Option.map_some]
        cases q with
        | some i => exact ⟨_, rfl, ⟨(by intro j hj; cases hj), (by intro j hj; cases hj; exact hiq i rfl)⟩⟩
        | none => exact ⟨_, rfl, ⟨(by intro j hj; cases hj), (by intro j hj; cases hj)⟩⟩
    obtain ⟨r, hr, hm⟩ := this
    rw [hr]
    exact ⟨_, _, _, rfl, trivial, rfl, hm⟩

theorem masterLogical_total {T : Table Named} {L : Loaded} {chs fns : List Nat} (h : Lookups T L chs fns) (c : Nat) (x : Logical Ptr Txt) :
    ∃ s' y es, masterLogical T L c () x = some (s', y, es) ∧ True ∧
      (y.toLc = x.toLc ∧ y.fns.map (·.id) = x.fns.map (·.id) ∧ ∀ z ∈ y.fns, MasterIn chs fns z.master) := by
  obtain ⟨s', ys, es, ht, -, hl, hq⟩ := thread_total (g := masterFn T L c) (fun _ => True)
    (fun x y => y.toFn = x.toFn ∧ MasterIn chs fns y.master) x.fns (fun y _ s _ => masterFn_total h c y) () trivial
  have e1 : ys.map Func.toFn = x.fns.map Func.toFn := map_of_index hl (fun k a b ha hb => (hq k a b ha hb).1)
  have e2 : ys.map (·.id) = x.fns.map (·.id) := by
    have := congrArg (List.map Fn.id) e1
    simp only [List.map_map] at this
    exact this
  refine ⟨s', _, _, by unfold masterLogical; rw [ht]; rfl, trivial, ?_, e2, ?_⟩
  · simp only [Logical.toLc, e1]
  · intro z hz; exact (from_index hl hq z hz).choose_spec.2.2

theorem masterChan_total {T : Table Named} {L : Loaded} {chs fns : List Nat} (h : Lookups T L chs fns) (x : Chan Ptr (Option Nat) Txt) :
    ∃ s' y es, masterChan T L () x = some (s', y, es) ∧ True ∧
      (y.toCh = x.toCh ∧ y.initial = x.initial ∧ ∀ l ∈ y.logicals, ∀ z ∈ l.fns, MasterIn chs fns z.master) := by
  obtain ⟨s', ys, es, ht, -, hl, hq⟩ := thread_total (g := masterLogical T L x.id) (fun _ => True)
    (fun x y => y.toLc = x.toLc ∧ y.fns.map (·.id) = x.fns.map (·.id) ∧ ∀ z ∈ y.fns, MasterIn chs fns z.master) x.logicals
    (fun y _ s _ => masterLogical_total h x.id y) () trivial
  have e1 : ys.map Logical.toLc = x.logicals.map Logical.toLc := map_of_index hl (fun k a b ha hb => (hq k a b ha hb).1)
  refine ⟨s', _, _, by unfold masterChan; rw [ht]; rfl, trivial, ?_, rfl, ?_⟩
  · simp only [Chan.toCh, e1]
  · intro z hz; exact (from_index hl hq z hz).choose_spec.2.2.2

theorem masterMode_total {T : Table Named} (m : Mode Ptr (Option Nat) Txt × Loaded) (hf : ModeFacts m.1)
    (h : Lookups T m.2 (chIds m.1) (fnIds m.1)) :
    ∃ s' y es, masterMode T () m = some (s', y, es) ∧ True ∧
      (ModeFacts y ∧ (∀ c ∈ y.chans, ∀ l ∈ c.logicals, ∀ z ∈ l.fns, MasterIn (chIds y) (fnIds y) z.master)) := by
  obtain ⟨s', ys, es, ht, -, hl, hq⟩ := thread_total (g := masterChan T m.2) (fun _ => True)
    (fun x y => y.toCh = x.toCh ∧ y.initial = x.initial ∧
      ∀ l ∈ y.logicals, ∀ z ∈ l.fns, MasterIn (chIds m.1) (fnIds m.1) z.master) m.1.chans
    (fun y _ s _ => masterChan_total h y) () trivial
  have e1 : ys.map Chan.toCh = m.1.chans.map Chan.toCh := map_of_index hl (fun k a b ha hb => (hq k a b ha hb).1)
  have e2 : ys.map (·.id) = chIds m.1 := by
    have := congrArg (List.map Ch.id) e1
    simp only [List.map_map] at this
    exact this
  have e3 : ys.flatMap fnsOf = fnIds m.1 := by
    have := congrArg (List.flatMap chFns) e1
    simp only [List.flatMap_map, chFns_toCh] at this
    exact this
  refine ⟨s', _, _, by unfold masterMode; rw [ht]; rfl, trivial, ⟨?_, ?_, ?_, ?_⟩, ?_⟩
  · intro c hc
    obtain ⟨d, hd, hd2⟩ := from_index hl hq c hc
    rw [hd2.1]
    exact hf.names d hd
  · intro c hc
    obtain ⟨d, hd, hd2⟩ := from_index hl hq c hc
    show ToId (ys.flatMap fnsOf) _
    rw [hd2.2.1, e3]
    exact hf.initial d hd
  · show ∀ r ∈ m.1.relations, ToId (ys.map (·.id)) _ ∧ ToId (ys.flatMap fnsOf) _
    rw [e2, e3]
    exact hf.relations
  · show ∀ k ∈ m.1.macros, ToId (ys.flatMap fnsOf) _ ∧ (∀ v ∈ k.dmx, ToId (ys.map (·.id)) _) ∧ ∀ v ∈ k.visual, ToId (ys.flatMap fnsOf) _
    rw [e2, e3]
    exact hf.macros
  · intro c hc
    obtain ⟨d, hd, hd2⟩ := from_index hl hq c hc
    show ∀ l ∈ c.logicals, ∀ z ∈ l.fns, MasterIn (ys.map (·.id)) (ys.flatMap fnsOf) z.master
    rw [e2, e3]
    exact hd2.2.2

/-! ### Writing -/

theorem fnAttr_total {K : List Ch} (h : ∀ c ∈ K, c.getName ≠ none) {p : Option Nat} (hp : ToId (K.flatMap chFns) p) :
    (fnAttr K p).isSome = true := by
  cases p with
  | none => rfl
  | some i =>
    have hi := hp i rfl
    rw [← flatMap_ids] at hi
    obtain ⟨q, hq, hqi⟩ := List.mem_map.1 hi
    unfold fnAttr
    simp only
    cases hf : (K.flatMap Ch.fnRefs).find? (fun q => q.2.id == i) with
    | none =>
      rw [List.find?_eq_none] at hf
      exact absurd hqi (by simpa using hf q hq)
    | some r =>
      have hr := List.mem_of_find?_eq_some hf
      obtain ⟨c, hc, hrc⟩ := List.mem_flatMap.1 hr
      have := fnRefs_some (h c hc) r hrc
      rw [Option.bind_some]
      exact Option.isSome_iff_ne_none.2 this

theorem chAttr_total {K : List Ch} (h : ∀ c ∈ K, c.getName ≠ none) {p : Option Nat} (hp : ToId (K.map Ch.id) p) :
    (chAttr K p).isSome = true := by
  cases p with
  | none => rfl
  | some i =>
    obtain ⟨q, hq, hqi⟩ := List.mem_map.1 (hp i rfl)
    unfold chAttr
    simp only
    cases hf : K.find? (fun c => c.id == i) with
    | none =>
      rw [List.find?_eq_none] at hf
      exact absurd hqi (by simpa using hf q hq)
    | some r =>
      rw [Option.bind_some]
      exact Option.isSome_iff_ne_none.2 (h r (List.mem_of_find?_eq_some hf))

theorem isSome_bind {α β : Type} {o : Option α} {g : α → Option β} (h : o.isSome = true) :
    (o.bind g).isSome = true ↔ (g (o.get h)).isSome = true := by
  cases o with
  | none => cases h
  | some x => rfl

/-- A mode whose pointers lead to its channels and functions can be written if and only if no value of a macro has a null
pointer. -/
theorem writeMode_iff {m : Mode Ptr (Option Nat) Master} (hf : ModeFacts m)
    (hm : ∀ c ∈ m.chans, ∀ l ∈ c.logicals, ∀ z ∈ l.fns, MasterIn (chIds m) (fnIds m) z.master) :
    (writeMode m).isSome = true ↔ ∀ k ∈ m.macros, (∀ v ∈ k.dmx, v.2 ≠ none) ∧ ∀ v ∈ k.visual, v ≠ none := by
  have hn : ∀ c ∈ m.chans.map Chan.toCh, c.getName ≠ none := by
    intro c hc
    obtain ⟨d, hd, rfl⟩ := List.mem_map.1 hc
    exact hf.names d hd
  have e1 : (m.chans.map Chan.toCh).map Ch.id = chIds m := by
    simp only [List.map_map]; rfl
  have e2 : (m.chans.map Chan.toCh).flatMap chFns = fnIds m := by
    simp only [List.flatMap_map, chFns_toCh]; rfl
  have fa : ∀ p, ToId (fnIds m) p → (fnAttr (m.chans.map Chan.toCh) p).isSome = true := fun p hp => fnAttr_total hn (by rw [e2]; exact hp)
  have ca : ∀ p, ToId (chIds m) p → (chAttr (m.chans.map Chan.toCh) p).isSome = true := fun p hp => chAttr_total hn (by rw [e1]; exact hp)
  have hfn : ∀ c ∈ m.chans, ∀ l ∈ c.logicals, ∀ x ∈ l.fns, (writeFn (m.chans.map Chan.toCh) x).isSome = true := by
    intro c hc l hl x hx
    obtain ⟨h1, h2⟩ := hm c hc l hl x hx
    unfold writeFn
    rw [Option.isSome_map]
    cases hx : x.master with
    | channel i => exact ca _ (by intro j hj; cases hj; exact h1 i hx)
    | function i => exact fa _ (by intro j hj; cases hj; exact h2 i hx)
    | unresolved => rfl
  have hch : (mapO (writeChan (m.chans.map Chan.toCh)) m.chans).isSome = true := by
    rw [mapO_some]
    intro c hc
    unfold writeChan
    rw [isSome_bind (fa _ (hf.initial c hc)), Option.isSome_map, mapO_some]
    intro l hl
    unfold writeLogical
    rw [Option.isSome_map, mapO_some]
    exact hfn c hc l hl
  have hrel : (mapO (writeRel (m.chans.map Chan.toCh)) m.relations).isSome = true := by
    rw [mapO_some]
    intro r hr
    obtain ⟨h1, h2⟩ := hf.relations r hr
    unfold writeRel
    rw [isSome_bind (ca _ h1), Option.isSome_map]
    exact fa _ h2
  unfold writeMode
  simp only
  rw [isSome_bind hch, isSome_bind hrel, Option.isSome_map, mapO_some]
  refine forall_congr' fun k => forall_congr' fun hk => ?_
  obtain ⟨h1, h2, h3⟩ := hf.macros k hk
  have hd : (mapO (fun (v : Nat × Option Nat) => if v.2 = none then none else
      (chAttr (m.chans.map Chan.toCh) v.2).map fun t => (v.1, t)) k.dmx).isSome = true ↔ ∀ v ∈ k.dmx, v.2 ≠ none := by
    rw [mapO_some]
    refine forall_congr' fun v => forall_congr' fun hv => ?_
    split
    · simp [*]
    · rw [Option.isSome_map]
      simp [ca _ (h2 v hv), *]
  have hv : (mapO (fun (v : Option Nat) => if v = none then none else fnAttr (m.chans.map Chan.toCh) v) k.visual).isSome = true ↔
      ∀ v ∈ k.visual, v ≠ none := by
    rw [mapO_some]
    refine forall_congr' fun v => forall_congr' fun hv => ?_
    split
    · simp [*]
    · simp [fa _ (h3 v hv), *]
  unfold writeMacro
  rw [isSome_bind (fa _ h1), ← hd, ← hv]
  cases mapO (fun (v : Nat × Option Nat) => if v.2 = none then none else
      (chAttr (m.chans.map Chan.toCh) v.2).map fun t => (v.1, t)) k.dmx with
  | none => simp
  | some d => simp

/-! ## Theorems -/

/-- **C70**, partial: if the links to attributes in a description lead to an attribute, and "NoFeature" is not used as a main
attribute without being there, reading the description has no undefined behaviour; and the fixture that was read can be written
if and only if no value of a macro and no personality is left with a null pointer. -/
theorem C70_read_write_partial (W : Doc) (T : Table Named) (n : Nat)
    (hl : ∀ l ∈ logicals W, Leads (W.attrs.map (·.me)) l.attr) (hx : ∀ x ∈ functions W, Leads (W.attrs.map (·.me)) x.attr)
    (hm : ∀ a ∈ W.attrs, SameName a.main noFeatureText → ∃ b ∈ W.attrs, SameName b.me.ref noFeatureText) :
    ∃ F errs, resolve T n W = some (F, errs) ∧
      (write F ≠ none ↔ (∀ p ∈ F.persons, p.2 ≠ none) ∧
        ∀ m ∈ F.modes, ∀ k ∈ m.macros, (∀ v ∈ k.dmx, v.2 ≠ none) ∧ ∀ v ∈ k.visual, v ≠ none) := by
  have hs0 : Sound T (W.attrs.map (·.me)) ⟨W.pool.attrState T, n, [], W.features⟩ := by
    refine ⟨by rw [← pool_attrs]; exact attr_initial W.pool T, ?_⟩
    rintro ⟨a, ha, hs⟩
    show scan (W.pool.attributes.map Prod.fst) noFeatureText ≠ none
    rw [pool_attrs, ne_eq, scan_none_iff]
    exact fun h => h a ha hs
  obtain ⟨s1, ys, es1, h1, hs1, hl1, hq1⟩ := thread_total (g := resolveMode W.pool T) (Sound T (W.attrs.map (·.me)))
    (fun _ y => ModeFacts y.1 ∧ Lookups T y.2 (chIds y.1) (fnIds y.1)) W.modes
    (fun m hm s hs => resolveMode_total m (fun c hc l hl' =>
      ⟨hl l (by unfold logicals channels; simp only [List.mem_flatMap]; exact ⟨c, ⟨m, hm, hc⟩, hl'⟩),
       fun x hx' => hx x (by unfold functions logicals channels; simp only [List.mem_flatMap]; exact ⟨l, ⟨c, ⟨m, hm, hc⟩, hl'⟩, hx'⟩)⟩)
      s hs) _ hs0
  have hmodes := from_index hl1 hq1
  obtain ⟨s2, zs, es2, h2, -, hl2, hq2⟩ := thread_total (g := masterMode T) (fun _ => True)
    (fun _ y => ModeFacts y ∧ (∀ c ∈ y.chans, ∀ l ∈ c.logicals, ∀ z ∈ l.fns, MasterIn (chIds y) (fnIds y) z.master)) ys
    (fun m hm s _ => masterMode_total m (hmodes m hm).choose_spec.2.1 (hmodes m hm).choose_spec.2.2) () trivial
  have hz := from_index hl2 hq2
  obtain ⟨s3, as, es3, h3, -⟩ := thread_total (g := resolveAttr T W.groups) (fun s => s = s1) (fun _ _ => True) W.attrs
    (fun a ha s hs => by
      subst hs
      unfold resolveAttr
      simp only
      split
      · exact ⟨_, _, _, rfl, rfl, trivial⟩
      · have : ∃ r, resolveMain s T a.me.id a.main = some r := by
          unfold resolveMain
          split
          · exact ⟨_, rfl⟩
          · rename_i h0
            simp only
            split
            · rename_i hbad
              exfalso
              simp only [Bool.and_eq_true, Option.isNone_iff_eq_none] at hbad
              obtain ⟨hno, hyes⟩ := hbad
              rw [(getAttr_attrs s T a.main).1] at hyes
              unfold AttrState.getByRef at hyes
              split at hyes
              · rename_i hsame
                obtain ⟨b, hb, hbs⟩ := hm a ha ((eqNoCase_iff _ _).1 hsame)
                exact hs1.2 ⟨b.me, List.mem_map.2 ⟨b, hb, rfl⟩, hbs⟩ hno
              · split at hyes
                · rw [hno] at hyes; cases hyes
                · simp [hno] at hyes
            · exact ⟨_, rfl⟩
        obtain ⟨r, hr⟩ := this
        rw [hr]
        exact ⟨_, _, _, rfl, rfl, trivial⟩) s1 rfl
  refine ⟨_, _, by unfold resolve; simp only; rw [h1, Option.bind_some]; simp only; rw [h2, Option.bind_some, h3]; rfl, ?_⟩
  have hmo : (mapO writeMode zs).isSome = true ↔ ∀ m ∈ zs, ∀ k ∈ m.macros, (∀ v ∈ k.dmx, v.2 ≠ none) ∧ ∀ v ∈ k.visual, v ≠ none := by
    rw [mapO_some]
    refine forall_congr' fun m => forall_congr' fun hm' => ?_
    exact writeMode_iff (hz m hm').choose_spec.2.1 (hz m hm').choose_spec.2.2
  have hpe : ∀ (ps : List (Nat × Ptr)), (mapO (fun (p : Nat × Ptr) => p.2.map fun x => (p.1, x.ref)) ps).isSome = true ↔
      ∀ p ∈ ps, p.2 ≠ none := by
    intro ps
    rw [mapO_some]
    refine forall_congr' fun p => forall_congr' fun _ => ?_
    rw [Option.isSome_map, Option.isSome_iff_ne_none]
  rw [← Option.isSome_iff_ne_none, ← hmo, ← hpe]
  unfold write
  simp only
  cases mapO writeMode zs with
  | none => simp
  | some d => rw [Option.bind_some, Option.isSome_map]; simp

end Verif.Link
