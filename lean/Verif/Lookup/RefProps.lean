import Verif.Lookup.RefModel

/-!
# C41: references to channels and channel functions
-/

namespace Verif.Lookup

/-! ## Specification -/

namespace Spec

/-- The name of a channel: geometry, underscore, attribute of the first logical channel. -/
def channelText (c : Ch) : Txt := c.geom.getD [] ++ lit "_" ++ ((c.logicals.head?.bind (·.attr)).getD [])

/-- The name of a function: its own, or its attribute and its number. -/
def fnName (f : Fn) (i : Nat) : Txt := if f.name = [] then f.attr.getD [] ++ lit " " ++ itoaTxt (i + 1) else f.name

/-- The reference of a function: channel, logical channel (its attribute) and function, separated by dots. -/
def fnText (c : Ch) (l : Lc) (i : Nat) (f : Fn) : Txt :=
  channelText c ++ lit "." ++ l.attr.getD [] ++ lit "." ++ fnName f i

/-- A channel as read from a file whose references were all found. -/
structure Resolved (c : Ch) : Prop where
  geom : c.geom ≠ none
  logicals : c.logicals ≠ []
  attrs : ∀ l ∈ c.logicals, l.attr ≠ none
  fnAttrs : ∀ l ∈ c.logicals, ∀ f ∈ l.fns, f.attr ≠ none
  unnamed : c.name = []
  unnamedLogical : ∀ l ∈ c.logicals, l.name = []

/-- The names in the mode are unique (up to case), and names of channels and attributes have no dot. -/
structure UniqueNames (m : List Ch) : Prop where
  chans : m.Pairwise (fun c d => ¬ SameName (channelText c) (channelText d))
  logicals : ∀ c ∈ m, c.logicals.Pairwise (fun l k => ¬ SameName (l.attr.getD []) (k.attr.getD []))
  fns : ∀ c ∈ m, ∀ l ∈ c.logicals, ∀ (i j : Nat) (f g : Fn), i < j → l.fns[i]? = some f → l.fns[j]? = some g →
    ¬ SameName (fnName f i) (fnName g j)
  chanDots : ∀ c ∈ m, (46 : BitVec 16) ∉ channelText c
  attrDots : ∀ c ∈ m, ∀ l ∈ c.logicals, (46 : BitVec 16) ∉ l.attr.getD []

end Spec

open Spec

/-! ## Lemmas -/

theorem lit_underscore : lit "_" = [95] := by decide
theorem lit_dot : lit "." = [46] := by decide
theorem lit_space : lit " " = [32] := by decide

theorem lowerU_dot (u : BitVec 16) (h : lowerU u = 46) : u = 46 := by
  unfold lowerU at h
  have hu := u.isLt
  rw [← BitVec.toNat_inj] at h ⊢
  split at h
  · rw [BitVec.toNat_add] at h; simp at h; omega
  · exact h

theorem split_sep (x y x' y' : Txt) (b : BitVec 16) (hx : b ∉ x) (hx' : b ∉ x') (h : x ++ b :: y = x' ++ b :: y') :
    x = x' ∧ y = y' := by
  induction x generalizing x' with
  | nil =>
    cases x' with
    | nil => simpa using h
    | cons c x' =>
      simp only [List.nil_append, List.cons_append, List.cons.injEq] at h
      exact absurd (by rw [h.1]; exact List.mem_cons_self) hx'
  | cons c x ih =>
    cases x' with
    | nil =>
      simp only [List.nil_append, List.cons_append, List.cons.injEq] at h
      exact absurd (by rw [h.1]; exact List.mem_cons_self) hx
    | cons c' x' =>
      simp only [List.cons_append, List.cons.injEq] at h
      obtain ⟨h1, h2⟩ := ih x' (fun hm => hx (List.mem_cons_of_mem _ hm)) (fun hm => hx' (List.mem_cons_of_mem _ hm)) h.2
      exact ⟨by rw [h.1, h1], h2⟩

theorem no_dot_lower (w : Txt) (hw : (46 : BitVec 16) ∉ w) : (46 : BitVec 16) ∉ w.map lowerU := by
  intro hm
  obtain ⟨u, hu, hu'⟩ := List.mem_map.1 hm
  exact hw (lowerU_dot u hu' ▸ hu)

theorem sameName_dot (s t s' t' : Txt) (hs : (46 : BitVec 16) ∉ s) (hs' : (46 : BitVec 16) ∉ s')
    (h : SameName (s ++ 46 :: t) (s' ++ 46 :: t')) : SameName s s' ∧ SameName t t' := by
  rw [← makeLower_iff] at h
  unfold makeLower at h
  have e : lowerU 46 = 46 := by decide
  rw [List.map_append, List.map_append, List.map_cons, List.map_cons, e] at h
  obtain ⟨h1, h2⟩ := split_sep _ _ _ _ _ (no_dot_lower s hs) (no_dot_lower s' hs') h
  exact ⟨(makeLower_iff _ _).1 h1, (makeLower_iff _ _).1 h2⟩

theorem sameName_no_dot (s t u : Txt) (hs : (46 : BitVec 16) ∉ s) : ¬ SameName s (t ++ 46 :: u) := by
  intro h
  rw [← makeLower_iff] at h
  unfold makeLower at h
  apply no_dot_lower s hs
  rw [h]
  exact List.mem_map.2 ⟨46, by simp, by decide⟩

theorem fnText_eq (c : Ch) (l : Lc) (i : Nat) (f : Fn) :
    fnText c l i f = channelText c ++ 46 :: (l.attr.getD [] ++ 46 :: fnName f i) := by
  unfold fnText
  rw [lit_dot]
  simp only [List.append_assoc, List.nil_append, List.cons_append]

theorem flatMap_congr_mem {α β : Type} {l : List α} {f g : α → List β} (h : ∀ x ∈ l, f x = g x) : l.flatMap f = l.flatMap g := by
  rw [List.flatMap_def, List.flatMap_def, List.map_congr_left h]

/-- The functions of a channel with their specified references. -/
def canonFns (c : Ch) : List Named := c.logicals.flatMap (fun l => l.fns.zipIdx.map (fun p => ⟨p.1.id, fnText c l p.2 p.1⟩))

/-- The channels with their specified references. -/
def canonCh (c : Ch) : Named := ⟨c.id, channelText c⟩

theorem getName_resolved (c : Ch) (h : Resolved c) : c.getName = some (channelText c) := by
  unfold Ch.getName channelText
  rw [if_neg (by rw [h.unnamed]; simp)]
  cases hl : c.logicals with
  | nil => exact absurd hl h.logicals
  | cons l ls =>
    have := h.attrs l (by rw [hl]; exact List.mem_cons_self)
    obtain ⟨a, ha⟩ := Option.ne_none_iff_exists'.1 this
    simp [ha]

theorem findSome_resolved (c : Ch) (h : Resolved c) :
    c.logicals.findSome? (·.attr) = some ((c.logicals.head?.bind (·.attr)).getD []) := by
  cases hl : c.logicals with
  | nil => exact absurd hl h.logicals
  | cons l ls =>
    have := h.attrs l (by rw [hl]; exact List.mem_cons_self)
    obtain ⟨a, ha⟩ := Option.ne_none_iff_exists'.1 this
    simp [ha]

theorem nameCh_resolved (c : Ch) (h : Resolved c) :
    nameCh c = { c with name := channelText c, logicals := c.logicals.map nameLc } := by
  obtain ⟨g, hg⟩ := Option.ne_none_iff_exists'.1 h.geom
  unfold nameCh
  rw [hg]
  simp only
  rw [findSome_resolved c h]
  simp only [channelText, hg, Option.getD_some]

theorem channelText_ne (c : Ch) : channelText c ≠ [] := by
  unfold channelText
  rw [lit_underscore]
  simp

theorem getName_named (c : Ch) (h : Resolved c) : (nameCh c).getName = some (channelText c) := by
  rw [nameCh_resolved c h]
  unfold Ch.getName
  rw [if_pos (channelText_ne c)]

theorem fnName_ne (f : Fn) (i : Nat) : fnName f i ≠ [] := by
  unfold fnName
  split
  · rw [lit_space]; simp
  · assumption

theorem refName_eq (f : Fn) (i : Nat) (h : f.attr ≠ none) : f.refName i = fnName f i := by
  obtain ⟨a, ha⟩ := Option.ne_none_iff_exists'.1 h
  unfold Fn.refName fnName
  by_cases hn : f.name = []
  · rw [if_neg (by simpa using hn), if_pos hn, ha]; rfl
  · rw [if_pos hn, if_neg hn]

/-- References before the names are generated. -/
theorem fnRefs_resolved (c : Ch) (h : Resolved c) :
    c.fnRefs.map (fun p => (p.1, p.2.id)) = (canonFns c).map (fun n => (some n.ref, n.id)) := by
  unfold Ch.fnRefs canonFns
  rw [List.map_flatMap, List.map_flatMap]
  apply flatMap_congr_mem
  intro l hl
  rw [List.map_map, List.map_map]
  apply List.map_congr_left
  intro p hp
  have hf : p.1 ∈ l.fns := by
    have := List.mem_zipIdx hp
    exact this.2.2 ▸ List.getElem_mem _
  simp only [Function.comp_apply, fnRef, getName_resolved c h, Option.map_some, refName_eq p.1 p.2 (h.fnAttrs l hl p.1 hf)]
  unfold fnText Lc.getName
  rw [if_neg (by rw [h.unnamedLogical l hl]; simp)]

theorem nameFns_refs (c : Ch) (l : Lc) (text : Txt) (hc : c.getName = some text) (fns : List Fn) : ∀ (k : Nat),
    (∀ f ∈ fns, f.attr ≠ none) →
    ((nameFns (k + 1) fns).zipIdx k).map (fun p => (fnRef c l p.2 p.1, p.1.id)) =
      (fns.zipIdx k).map (fun p => (some (text ++ lit "." ++ l.getName ++ lit "." ++ fnName p.1 p.2), p.1.id)) := by
  induction fns with
  | nil => intro k _; rfl
  | cons f fns ih =>
    intro k hf
    obtain ⟨a, ha⟩ := Option.ne_none_iff_exists'.1 (hf f List.mem_cons_self)
    have ih' := ih (k + 1) (fun g hg => hf g (List.mem_cons_of_mem _ hg))
    have step : ∃ f', nameFns (k + 1) (f :: fns) = f' :: nameFns (k + 1 + 1) fns ∧ f'.name = fnName f k ∧ f'.id = f.id := by
      rw [nameFns]
      unfold fnName
      by_cases hn : f.name = []
      · rw [if_pos hn, if_pos hn, ha]; exact ⟨{ f with name := a ++ lit " " ++ itoaTxt (k + 1) }, by rw [ha], rfl, rfl⟩
      · rw [if_neg hn, if_neg hn]; exact ⟨f, rfl, rfl, rfl⟩
    obtain ⟨f', h1, h2, h3⟩ := step
    rw [h1, List.zipIdx_cons, List.zipIdx_cons, List.map_cons, List.map_cons, ih']
    congr 1
    simp only [fnRef, hc, Option.map_some, h3]
    have : f'.refName k = fnName f k := by
      unfold Fn.refName
      rw [if_pos (by rw [h2]; exact fnName_ne f k), h2]
    rw [this]

/-- References after the names were generated. -/
theorem fnRefs_named (c : Ch) (h : Resolved c) :
    (nameCh c).fnRefs.map (fun p => (p.1, p.2.id)) = (canonFns c).map (fun n => (some n.ref, n.id)) := by
  have hname := getName_named c h
  unfold Ch.fnRefs canonFns
  have hlog : (nameCh c).logicals = c.logicals.map nameLc := by rw [nameCh_resolved c h]
  rw [hlog, List.map_flatMap, List.map_flatMap, List.flatMap_map]
  apply flatMap_congr_mem
  intro l hl
  obtain ⟨a, ha⟩ := Option.ne_none_iff_exists'.1 (h.attrs l hl)
  rw [List.map_map, List.map_map]
  have e : nameLc l = { l with name := a, fns := nameFns 1 l.fns } := by unfold nameLc; rw [ha]
  have en : (nameLc l).getName = l.attr.getD [] := by
    rw [e, ha]
    unfold Lc.getName
    simp only
    split
    · rfl
    · simp
  have hfns : (nameLc l).fns = nameFns 1 l.fns := by rw [e]
  rw [hfns]
  have := nameFns_refs (nameCh c) (nameLc l) _ hname l.fns 0 (h.fnAttrs l hl)
  rw [Nat.zero_add] at this
  refine Eq.trans this ?_
  apply List.map_congr_left
  intro p _
  simp only [Function.comp_apply, fnText, en]

theorem fnKeys_of (ps : List (Option Txt × Fn)) : ∀ (ns : List Named),
    ps.map (fun p => (p.1, p.2.id)) = ns.map (fun n => (some n.ref, n.id)) → fnKeys ps = some ns := by
  induction ps with
  | nil => intro ns h; cases ns with
    | nil => rfl
    | cons n ns => simp at h
  | cons p ps ih =>
    intro ns h
    cases ns with
    | nil => simp at h
    | cons n ns =>
      simp only [List.map_cons, List.cons.injEq, Prod.mk.injEq] at h
      unfold fnKeys
      rw [h.1.1, ih ns h.2, Option.bind_some, Option.map_some, h.1.2]

theorem scanFn_of (ref : Txt) (ps : List (Option Txt × Fn)) : ∀ (ns : List Named),
    ps.map (fun p => (p.1, p.2.id)) = ns.map (fun n => (some n.ref, n.id)) →
      scanFn ref ps = some ((scan ns ref).map Named.id) := by
  induction ps with
  | nil => intro ns h; cases ns with
    | nil => rfl
    | cons n ns => simp at h
  | cons p ps ih =>
    intro ns h
    cases ns with
    | nil => simp at h
    | cons n ns =>
      simp only [List.map_cons, List.cons.injEq, Prod.mk.injEq] at h
      unfold scanFn
      rw [h.1.1, ih ns h.2, Option.bind_some, scan_cons]
      by_cases hb : eqNoCase n.ref ref = true
      · rw [if_pos hb, if_pos hb, h.1.2]; rfl
      · rw [if_neg hb, if_neg hb]; rfl

theorem chanKeys_of (m : List Ch) (h : ∀ c ∈ m, Resolved c) : chanKeys m = some (m.map canonCh) := by
  induction m with
  | nil => rfl
  | cons c m ih =>
    unfold chanKeys
    rw [getName_resolved c (h c List.mem_cons_self), ih (fun d hd => h d (List.mem_cons_of_mem _ hd))]
    rfl

theorem scanCh_of (ref : Txt) (m : List Ch) (h : ∀ c ∈ m, Resolved c) :
    scanCh ref (m.map nameCh) = some ((scan (m.map canonCh) ref).map Named.id) := by
  induction m with
  | nil => rfl
  | cons c m ih =>
    have hc := h c List.mem_cons_self
    rw [List.map_cons]
    unfold scanCh
    rw [getName_named c hc, ih (fun d hd => h d (List.mem_cons_of_mem _ hd)), Option.bind_some, List.map_cons, scan_cons]
    have hid : (nameCh c).id = c.id := by rw [nameCh_resolved c hc]
    have hr : (canonCh c).ref = channelText c := rfl
    rw [hr, hid]
    by_cases hb : eqNoCase (channelText c) ref = true
    · rw [if_pos hb, if_pos hb]; rfl
    · rw [if_neg hb, if_neg hb]; rfl

theorem flatMap_refs (m : List Ch) (g : Ch → List (Option Txt × Fn)) (h : ∀ c ∈ m, (g c).map (fun p => (p.1, p.2.id)) =
    (canonFns c).map (fun n => (some n.ref, n.id))) :
    (m.flatMap g).map (fun p => (p.1, p.2.id)) = (m.flatMap canonFns).map (fun n => (some n.ref, n.id)) := by
  rw [List.map_flatMap, List.map_flatMap]
  exact flatMap_congr_mem h

/-- Loading a mode whose references were all found gives, for modes of every size, lookups for the first channel or function
with the specified reference. -/
theorem load_resolved (T : Table Named) (m : List Ch) (h : ∀ c ∈ m, Resolved c) : ∃ L, load T m = some L ∧
    L.chans = m.map nameCh ∧
    (∀ ref, L.getChannel T ref = some ((scan (m.map canonCh) ref).map Named.id)) ∧
    (∀ ref, L.getFunction T ref = some ((scan (m.flatMap canonFns) ref).map Named.id)) := by
  have hk := flatMap_refs m Ch.fnRefs (fun c hc => fnRefs_resolved c (h c hc))
  have hk' : ((m.map nameCh).flatMap Ch.fnRefs).map (fun p => (p.1, p.2.id)) =
      (m.flatMap canonFns).map (fun n => (some n.ref, n.id)) := by
    rw [List.flatMap_map]
    exact flatMap_refs m (fun c => (nameCh c).fnRefs) (fun c hc => fnRefs_named c (h c hc))
  unfold load buildModeIndexes
  by_cases hs : m.length < 64
  · rw [if_pos hs]
    refine ⟨_, rfl, rfl, fun ref => ?_, fun ref => ?_⟩
    · unfold Loaded.getChannel
      rw [if_neg (by simp)]
      exact scanCh_of ref m h
    · unfold Loaded.getFunction
      rw [if_neg (by simp)]
      exact scanFn_of ref _ _ hk'
  · rw [if_neg hs, chanKeys_of m h, fnKeys_of _ _ hk]
    refine ⟨_, rfl, rfl, fun ref => ?_, fun ref => ?_⟩
    · unfold Loaded.getChannel
      split
      · rw [find_buildIndex]
      · exact scanCh_of ref m h
    · unfold Loaded.getFunction
      split
      · rw [find_buildIndex]
      · exact scanFn_of ref _ _ hk'

theorem scan_unique (l : List Named) (hp : l.Pairwise (fun x y => ¬ SameName x.ref y.ref)) (x : Named) (hx : x ∈ l) :
    scan l x.ref = some x := by
  induction l with
  | nil => cases hx
  | cons y l ih =>
    rw [List.pairwise_cons] at hp
    rw [scan_cons]
    rcases List.mem_cons.1 hx with rfl | hx'
    · rw [if_pos (eqNoCase_self _)]; rfl
    · rw [if_neg, ih hp.2 hx']
      · rfl
      · intro hb
        exact hp.1 x hx' ((eqNoCase_iff _ _).1 hb)

theorem zipIdx_pairwise {α : Type} (R : Nat × α → Nat × α → Prop) (l : List α) : ∀ (k : Nat),
    (∀ (i j : Nat) (x y : α), i < j → l[i]? = some x → l[j]? = some y → R (k + i, x) (k + j, y)) →
    (l.zipIdx k).Pairwise (fun p q => R (p.2, p.1) (q.2, q.1)) := by
  induction l with
  | nil => intro k _; exact List.Pairwise.nil
  | cons a l ih =>
    intro k h
    rw [List.zipIdx_cons, List.pairwise_cons]
    constructor
    · intro q hq
      obtain ⟨h1, h2, h3⟩ := List.mem_zipIdx hq
      have hlt : q.2 - (k + 1) < l.length := by omega
      have := h 0 (q.2 - (k + 1) + 1) a q.1 (by omega) rfl (by
        rw [List.getElem?_cons_succ, List.getElem?_eq_getElem hlt, h3])
      have e : k + (q.2 - (k + 1) + 1) = q.2 := by omega
      rw [e] at this
      exact this
    · refine ih (k + 1) (fun i j x y hij hx hy => ?_)
      have := h (i + 1) (j + 1) x y (by omega) (by simpa using hx) (by simpa using hy)
      rw [show k + 1 + i = k + (i + 1) by omega, show k + 1 + j = k + (j + 1) by omega]
      exact this

theorem canon_pairwise (m : List Ch) (h : UniqueNames m) :
    (m.flatMap canonFns).Pairwise (fun x y => ¬ SameName x.ref y.ref) := by
  rw [List.pairwise_flatMap]
  constructor
  · intro c hc
    unfold canonFns
    rw [List.pairwise_flatMap]
    constructor
    · intro l hl
      rw [List.pairwise_map]
      refine List.Pairwise.imp ?_ (zipIdx_pairwise (fun p q => ¬ SameName (fnName p.2 p.1) (fnName q.2 q.1)) l.fns 0
        (fun i j f g hij hf hg => by rw [Nat.zero_add, Nat.zero_add]; exact h.fns c hc l hl i j f g hij hf hg))
      intro p q hpq hs
      simp only [fnText_eq] at hs
      have h1 := (sameName_dot _ _ _ _ (h.chanDots c hc) (h.chanDots c hc) hs).2
      exact hpq (sameName_dot _ _ _ _ (h.attrDots c hc l hl) (h.attrDots c hc l hl) h1).2
    · refine List.Pairwise.imp_of_mem ?_ (h.logicals c hc)
      intro l k hl hk hlk x hx y hy hs
      obtain ⟨p, _, rfl⟩ := List.mem_map.1 hx
      obtain ⟨q, _, rfl⟩ := List.mem_map.1 hy
      simp only [fnText_eq] at hs
      have h1 := (sameName_dot _ _ _ _ (h.chanDots c hc) (h.chanDots c hc) hs).2
      exact hlk (sameName_dot _ _ _ _ (h.attrDots c hc l hl) (h.attrDots c hc k hk) h1).1
  · refine List.Pairwise.imp_of_mem ?_ h.chans
    intro c d hc hd hcd x hx y hy hs
    obtain ⟨l, hl, hx'⟩ := List.mem_flatMap.1 hx
    obtain ⟨k, hk, hy'⟩ := List.mem_flatMap.1 hy
    obtain ⟨p, _, rfl⟩ := List.mem_map.1 hx'
    obtain ⟨q, _, rfl⟩ := List.mem_map.1 hy'
    simp only [fnText_eq] at hs
    exact hcd (sameName_dot _ _ _ _ (h.chanDots c hc) (h.chanDots d hd) hs).1

/-! ## C41 -/

/-- C41: if all references of a mode were found and its channel names are unique, then, for modes of every size, the
reference text of a channel, generated before or after loading, gives that very channel. -/
theorem C41_channel (T : Table Named) (m : List Ch) (h : ∀ c ∈ m, Resolved c)
    (hu : m.Pairwise (fun c d => ¬ SameName (channelText c) (channelText d))) :
    ∃ L, load T m = some L ∧
      (∀ c ∈ m, c.getName = some (channelText c) ∧ L.getChannel T (channelText c) = some (some c.id) ∧
        L.modeMaster T (channelText c) = some (.channel c.id)) ∧
      (∀ c ∈ L.chans, ∃ text, c.getName = some text ∧ L.getChannel T text = some (some c.id) ∧
        L.modeMaster T text = some (.channel c.id)) := by
  obtain ⟨L, hL, hc, hch, hfn⟩ := load_resolved T m h
  have key : ∀ c ∈ m, L.getChannel T (channelText c) = some (some c.id) := by
    intro c hcm
    rw [hch]
    have := scan_unique (m.map canonCh) (by rw [List.pairwise_map]; exact hu) (canonCh c) (List.mem_map_of_mem hcm)
    rw [show (canonCh c).ref = channelText c from rfl] at this
    rw [this]
    rfl
  have key' : ∀ c ∈ m, L.modeMaster T (channelText c) = some (.channel c.id) := by
    intro c hcm
    unfold Loaded.modeMaster
    rw [key c hcm]
    rfl
  refine ⟨L, hL, fun c hcm => ⟨getName_resolved c (h c hcm), key c hcm, key' c hcm⟩, fun c' hc' => ?_⟩
  rw [hc] at hc'
  obtain ⟨c, hcm, rfl⟩ := List.mem_map.1 hc'
  have hid : (nameCh c).id = c.id := by rw [nameCh_resolved c (h c hcm)]
  rw [hid]
  exact ⟨channelText c, getName_named c (h c hcm), key c hcm, key' c hcm⟩

/-- C41: if all references of a mode were found, its names are unique, and names of channels and attributes have no dots,
then, for modes of every size, the reference text of a channel function, generated before or after loading, gives that very
function, also as mode master. -/
theorem C41_function (T : Table Named) (m : List Ch) (h : ∀ c ∈ m, Resolved c) (hu : UniqueNames m) :
    ∃ L, load T m = some L ∧
      (∀ c ∈ m, ∀ l ∈ c.logicals, ∀ (i : Nat) (f : Fn), l.fns[i]? = some f →
        fnRef c l i f = some (fnText c l i f) ∧ L.getFunction T (fnText c l i f) = some (some f.id) ∧
        L.modeMaster T (fnText c l i f) = some (.function f.id)) ∧
      (∀ c ∈ L.chans, ∀ p ∈ c.fnRefs, ∃ text, p.1 = some text ∧ L.getFunction T text = some (some p.2.id) ∧
        L.modeMaster T text = some (.function p.2.id)) := by
  obtain ⟨L, hL, hc, hch, hfn⟩ := load_resolved T m h
  have key : ∀ x ∈ m.flatMap canonFns, L.getFunction T x.ref = some (some x.id) ∧
      L.modeMaster T x.ref = some (.function x.id) := by
    intro x hx
    have h1 : L.getFunction T x.ref = some (some x.id) := by
      rw [hfn, scan_unique _ (canon_pairwise m hu) x hx]; rfl
    refine ⟨h1, ?_⟩
    have h2 : scan (m.map canonCh) x.ref = none := by
      refine List.find?_eq_none.2 (fun y hy hb => ?_)
      obtain ⟨d, hd, rfl⟩ := List.mem_map.1 hy
      obtain ⟨c, hcm, hx'⟩ := List.mem_flatMap.1 hx
      obtain ⟨l, hl, hx''⟩ := List.mem_flatMap.1 hx'
      obtain ⟨p, _, rfl⟩ := List.mem_map.1 hx''
      have := (eqNoCase_iff _ _).1 hb
      simp only [fnText_eq, canonCh] at this
      exact sameName_no_dot _ _ _ (hu.chanDots d hd) this
    unfold Loaded.modeMaster
    rw [hch, h2, h1]
    rfl
  refine ⟨L, hL, fun c hcm l hl i f hf => ?_, fun c' hc' p hp => ?_⟩
  · have hm : (⟨f.id, fnText c l i f⟩ : Named) ∈ m.flatMap canonFns :=
      List.mem_flatMap.2 ⟨c, hcm, List.mem_flatMap.2 ⟨l, hl, List.mem_map.2 ⟨(f, i), by
        rw [List.mem_zipIdx_iff_getElem?]; exact hf, rfl⟩⟩⟩
    have hk := key _ hm
    dsimp only at hk
    refine ⟨?_, hk⟩
    have hr := h c hcm
    unfold fnRef fnText
    rw [getName_resolved c hr, Option.map_some, refName_eq f i (hr.fnAttrs l hl f (List.mem_of_getElem? hf))]
    unfold Lc.getName
    rw [if_neg (by rw [hr.unnamedLogical l hl]; simp)]
  · rw [hc] at hc'
    obtain ⟨c, hcm, rfl⟩ := List.mem_map.1 hc'
    have := fnRefs_named c (h c hcm)
    have hm : (p.1, p.2.id) ∈ (canonFns c).map (fun n => (some n.ref, n.id)) := by
      rw [← this]; exact List.mem_map.2 ⟨p, hp, rfl⟩
    obtain ⟨x, hx, hxe⟩ := List.mem_map.1 hm
    simp only [Prod.mk.injEq] at hxe
    rw [← hxe.2, ← hxe.1]
    exact ⟨x.ref, rfl, key x (List.mem_flatMap.2 ⟨c, hcm, hx⟩)⟩

/-- C41, C30: the number of channels has no influence on what a reference means, as long as all references of the mode were
found: in modes of every size it is the first channel or function with that reference. -/
theorem C41_first_partial (T : Table Named) (m : List Ch) (h : ∀ c ∈ m, Resolved c) (ref : Txt) :
    ∃ L r s, load T m = some L ∧ FirstNamed (m.map fun c => ⟨c.id, channelText c⟩) ref r ∧
      L.getChannel T ref = some (r.map Named.id) ∧
      FirstNamed (m.flatMap fun c => c.logicals.flatMap fun l => l.fns.zipIdx.map fun p => ⟨p.1.id, fnText c l p.2 p.1⟩) ref s ∧
      L.getFunction T ref = some (s.map Named.id) := by
  obtain ⟨L, hL, _, hch, hfn⟩ := load_resolved T m h
  exact ⟨L, _, _, hL, scan_first _ ref, hch ref, scan_first _ ref, hfn ref⟩

/-! ### A concrete mode -/

/-- Two channels with two functions each; two functions have no name. -/
def demoMode : List Ch :=
  [⟨1, [], some (lit "Head"), [⟨[], some (lit "Pan"), [⟨11, lit "Fast", some (lit "Pan")⟩, ⟨12, [], some (lit "Pan")⟩]⟩]⟩,
   ⟨2, [], some (lit "Head"), [⟨[], some (lit "Tilt"), [⟨21, [], some (lit "Tilt")⟩, ⟨22, lit "Fast", some (lit "Tilt")⟩]⟩]⟩]

theorem demoMode_resolved : ∀ c ∈ demoMode, Resolved c := by
  intro c hc
  simp only [demoMode, List.mem_cons, List.not_mem_nil, or_false] at hc
  rcases hc with rfl | rfl <;> exact ⟨by simp, by simp, by simp, by simp, rfl, by simp⟩

theorem demoMode_unique : UniqueNames demoMode := by
  refine ⟨?_, ?_, ?_, ?_, ?_⟩
  · have : demoMode.Pairwise (fun c d => eqNoCase (channelText c) (channelText d) = false) := by decide +kernel
    exact this.imp (fun h hs => by rw [(eqNoCase_iff _ _).2 hs] at h; cases h)
  · intro c hc
    simp only [demoMode, List.mem_cons, List.not_mem_nil, or_false] at hc
    rcases hc with rfl | rfl <;> exact List.pairwise_singleton _ _
  · intro c hc l hl i j f g hij hf hg hs
    have hb := (eqNoCase_iff _ _).2 hs
    simp only [demoMode, List.mem_cons, List.not_mem_nil, or_false] at hc
    rcases hc with rfl | rfl <;>
    · simp only [List.mem_singleton] at hl
      subst hl
      have hj : j < 2 := (List.getElem?_eq_some_iff.1 hg).1
      have : i = 0 ∧ j = 1 := by omega
      obtain ⟨rfl, rfl⟩ := this
      simp only [List.getElem?_cons_succ, List.getElem?_cons_zero, Option.some.injEq] at hf hg
      subst hf hg
      exact absurd hb (by decide +kernel)
  · have : ∀ c ∈ demoMode, (46 : BitVec 16) ∉ channelText c := by decide +kernel
    exact this
  · have : ∀ c ∈ demoMode, ∀ l ∈ c.logicals, (46 : BitVec 16) ∉ l.attr.getD [] := by decide +kernel
    exact this

example : (demoMode.flatMap canonFns).map (·.ref) =
    [lit "Head_Pan.Pan.Fast", lit "Head_Pan.Pan.Pan 2", lit "Head_Tilt.Tilt.Tilt 1", lit "Head_Tilt.Tilt.Fast"] := by
  decide +kernel

theorem load_small (T : Table Named) (m : List Ch) (h : m.length < 64) : load T m = some ⟨⟨[], []⟩, m.map nameCh⟩ := by
  unfold load buildModeIndexes
  rw [if_pos h]
  rfl

/-! ### Violations -/

/-- Two channels. Names are unique everywhere, but an attribute and a function name contain dots. -/
def dotMode : List Ch :=
  [⟨1, [], some (lit "G"), [⟨[], some (lit "a.b"), [⟨11, lit "f", some (lit "a.b")⟩]⟩]⟩,
   ⟨2, [], some (lit "G"), [⟨[], some (lit "a"), []⟩, ⟨[], some (lit "b"), [⟨21, lit "a.b.f", some (lit "b")⟩]⟩]⟩]

/-- C41 (dots matter): with dots in names, which the library allows (see C24), the reference of one function gives another
one, although all names are unique. -/
theorem C41_dots_violated (T : Table Named) : ∃ L, load T dotMode = some L ∧
    (∃ c ∈ dotMode, ∃ l ∈ c.logicals, ∃ f ∈ l.fns, f.id = 21 ∧ ∃ text, fnRef c l 0 f = some text ∧
      L.getFunction T text = some (some 11)) := by
  refine ⟨⟨⟨[], []⟩, dotMode.map nameCh⟩, load_small T _ (by decide), ?_⟩
  refine ⟨_, List.mem_cons_of_mem _ List.mem_cons_self, _, List.mem_cons_of_mem _ List.mem_cons_self, _, List.mem_cons_self, rfl,
    lit "G_a.b.a.b.f", by decide +kernel, ?_⟩
  unfold Loaded.getFunction
  rw [if_neg (by simp)]
  decide +kernel

/-- A function named like the name another function gets. -/
def clashMode : List Ch :=
  [⟨1, [], some (lit "G"), [⟨[], some (lit "Pan"), [⟨11, lit "Pan 2", some (lit "Pan")⟩, ⟨12, [], some (lit "Pan")⟩]⟩]⟩]

/-- C41 (generated names): a function without name gets attribute and number as its name, even if another function of the
logical channel already has that name; its reference then gives the other one. -/
theorem C41_generated_name_clash (T : Table Named) : ∃ L, load T clashMode = some L ∧
    (∃ c ∈ L.chans, ∃ p ∈ c.fnRefs, p.2.id = 12 ∧ ∃ text, p.1 = some text ∧ L.getFunction T text = some (some 11)) := by
  refine ⟨⟨⟨[], []⟩, clashMode.map nameCh⟩, load_small T _ (by decide), ?_⟩
  refine ⟨_, List.mem_cons_self, (some (lit "G_Pan.Pan.Pan 2"), ⟨12, lit "Pan 2", some (lit "Pan")⟩), by decide +kernel, rfl,
    _, rfl, ?_⟩
  unfold Loaded.getFunction
  rw [if_neg (by simp)]
  decide +kernel

/-- A mode in which the attribute of one function was not found. -/
def staleMode : List Ch :=
  [⟨1, [], some (lit "G"), [⟨[], some (lit "Pan"), [⟨11, [], none⟩, ⟨12, [], some (lit "Pan")⟩]⟩]⟩]

/-- Further channels without functions. -/
def fillChans : List Ch := List.replicate 64 ⟨9, [], some (lit "Z"), [⟨[], some (lit "Zoom"), []⟩]⟩

/-- C41, C30 (violated): the index of a mode with 64 channels or more is built before the names are generated. If the
attribute of a function was not found, the numbers in the generated names differ, and the reference of the next function
cannot be resolved any more; in a smaller mode it can. -/
theorem C41_index_before_names_violated (T : Table Named) :
    (∃ L, load T staleMode = some L ∧ ∃ c ∈ L.chans, ∃ p ∈ c.fnRefs, p.2.id = 12 ∧ ∃ text, p.1 = some text ∧
      L.getFunction T text = some (some 12)) ∧
    (∃ L, load T (staleMode ++ fillChans) = some L ∧ ∃ c ∈ L.chans, ∃ p ∈ c.fnRefs, p.2.id = 12 ∧ ∃ text, p.1 = some text ∧
      L.getFunction T text = some none) := by
  constructor
  · refine ⟨⟨⟨[], []⟩, staleMode.map nameCh⟩, load_small T _ (by decide), ?_⟩
    refine ⟨_, List.mem_cons_self, (some (lit "G_Pan.Pan.Pan 1"), ⟨12, lit "Pan 1", some (lit "Pan")⟩), by decide +kernel, rfl,
      _, rfl, ?_⟩
    unfold Loaded.getFunction
    rw [if_neg (by simp)]
    decide +kernel
  · have hk : ∃ ck, chanKeys (staleMode ++ fillChans) = some ck := by
      have : (chanKeys (staleMode ++ fillChans)).isSome = true := by decide +kernel
      exact Option.isSome_iff_exists.1 this
    obtain ⟨ck, hck⟩ := hk
    have hf : fnKeys ((staleMode ++ fillChans).flatMap Ch.fnRefs) =
        some [⟨11, lit "G_Pan.Pan."⟩, ⟨12, lit "G_Pan.Pan.Pan 2"⟩] := by decide +kernel
    refine ⟨⟨⟨buildIndex T ck, buildIndex T [⟨11, lit "G_Pan.Pan."⟩, ⟨12, lit "G_Pan.Pan.Pan 2"⟩]⟩,
      (staleMode ++ fillChans).map nameCh⟩, ?_, ?_⟩
    · unfold load buildModeIndexes
      rw [if_neg (by decide), hck, hf]
      rfl
    · refine ⟨nameCh ⟨1, [], some (lit "G"), [⟨[], some (lit "Pan"), [⟨11, [], none⟩, ⟨12, [], some (lit "Pan")⟩]⟩]⟩, ?_,
        (some (lit "G_Pan.Pan.Pan 1"), ⟨12, lit "Pan 1", some (lit "Pan")⟩), by decide +kernel, rfl, _, rfl, ?_⟩
      · exact List.mem_map.2 ⟨_, List.mem_append_left _ List.mem_cons_self, rfl⟩
      · unfold Loaded.getFunction
        simp only
        have hne : buildIndex T [⟨11, lit "G_Pan.Pan."⟩, ⟨12, lit "G_Pan.Pan.Pan 2"⟩] ≠ [] := by
          intro he
          have h1 := find_buildIndex T [⟨11, lit "G_Pan.Pan."⟩, ⟨12, lit "G_Pan.Pan.Pan 2"⟩] (lit "G_Pan.Pan.")
          rw [he, find_nil] at h1
          have h2 : (scan [⟨11, lit "G_Pan.Pan."⟩, ⟨12, lit "G_Pan.Pan.Pan 2"⟩] (lit "G_Pan.Pan.")).isSome = true := by
            decide +kernel
          rw [← h1] at h2
          cases h2
        rw [if_pos hne, find_buildIndex]
        decide +kernel

/-- A mode with 65 channels, one of them with a logical channel whose attribute was not found. -/
def crashMode : List Ch := ⟨1, [], some (lit "G"), [⟨[], none, []⟩]⟩ :: fillChans

/-- C41 (violated): loading a mode with 64 channels or more dereferences a null pointer if the attribute of the first logical
channel of a channel was not found (and the fixture has no attribute NoFeature). A smaller mode is loaded. -/
theorem C41_missing_attribute_violated (T : Table Named) : load T crashMode = none ∧ (load T (crashMode.take 63)).isSome = true := by
  constructor
  · unfold load buildModeIndexes
    rw [if_neg (by decide)]
    have : chanKeys crashMode = none := by decide +kernel
    rw [this]
    rfl
  · unfold load buildModeIndexes
    rw [if_pos (by decide)]
    rfl

end Verif.Lookup
