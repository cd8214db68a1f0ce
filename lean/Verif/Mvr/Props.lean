import Verif.Mvr.Lemmas

/-!
# C65: every object of an MVR scene comes back with its values
-/

namespace Verif.Mvr

open Verif.Str Verif.Real Verif.Dmx Spec Inner

theorem row_of {c : Class} (hc : c ∈ classes) : row classes c.name = c := by
  unfold row
  rw [(table_ok c hc).2]
  rfl

theorem write_name (cs : List Class) (o : Obj) : (write cs o).name = (row cs o.cls).node.toList := by
  cases o; simp [write, Scene.Xml.name, Obj.cls]

theorem writeList_map (cs : List Class) (k : List Obj) : writeList cs k = (k.filter (fun o => !skipped cs o)).map (write cs) := by
  induction k with
  | nil => simp [writeList]
  | cons o k ih =>
    rw [writeList, ih]
    cases h : skipped cs o <;> simp [h]

theorem pruneList_eq (k : List Obj) : pruneList k = (k.filter (fun o => decide (¬ EmptyGroup o))).map prune := by
  induction k with
  | nil => simp [pruneList]
  | cons o k ih =>
    rw [pruneList, ih]
    by_cases h : EmptyGroup o <;> simp [h]

theorem sameList_map {f g : Obj → Obj} : ∀ {k : List Obj}, (∀ o ∈ k, Same (f o) (g o)) → SameList (k.map f) (k.map g)
  | [], _ => by simp [SameList]
  | o :: k, h => by
    rw [List.map_cons, List.map_cons, SameList]
    exact ⟨h o (List.mem_cons_self ..), sameList_map (fun p hp => h p (List.mem_cons_of_mem _ hp))⟩

/-! ### Objects that are left out -/

theorem small_of_sq {x y z e : ℚ} (he : 0 < e) (h : x ^ 2 + y ^ 2 + z ^ 2 < e ^ 2) : |x| ≤ e ∧ |y| ≤ e ∧ |z| ≤ e := by
  have hx := sq_nonneg x
  have hy := sq_nonneg y
  have hz := sq_nonneg z
  refine ⟨abs_le_of_sq_le_sq ?_ he.le, abs_le_of_sq_le_sq ?_ he.le, abs_le_of_sq_le_sq ?_ he.le⟩ <;> linarith

theorem pointEq_near {a b : V3} (ha : 0 ≤ a.x.mag ∧ 0 ≤ a.y.mag ∧ 0 ≤ a.z.mag) (h : pointEq a b = true) : NearV a b := by
  unfold pointEq at h
  obtain ⟨h1, h2, h3⟩ := small_of_sq (by norm_num) (of_decide_eq_true h)
  have e : (1 : ℚ) / 10000000 ≤ 1 / 2000000 := by norm_num
  exact ⟨near_of_le _ _ ha.1 (h1.trans e), near_of_le _ _ ha.2.1 (h2.trans e), near_of_le _ _ ha.2.2 (h3.trans e)⟩

theorem isOrigin_near {a : V3} (ha : 0 ≤ a.x.mag ∧ 0 ≤ a.y.mag ∧ 0 ≤ a.z.mag) (h : isOrigin a = true) : NearV a ⟨zero, zero, zero⟩ := by
  apply pointEq_near ha
  unfold isOrigin at h
  have h := of_decide_eq_true h
  unfold pointEq
  have hz : signed zero = 0 := by simp [signed, zero]
  simp only [hz, sub_zero, h]
  norm_num

theorem identity_close {m : Mat} (hk : Kept .matrix (.matrix m)) (h : isIdentity m = true) : Close (.matrix m) (.matrix .identity) := by
  obtain ⟨a, b, c, d⟩ := hk
  unfold isIdentity at h
  simp only [Bool.and_eq_true] at h
  obtain ⟨⟨⟨h1, h2⟩, h3⟩, h4⟩ := h
  exact ⟨pointEq_near a h2, pointEq_near b h3, pointEq_near c h4, isOrigin_near d h1⟩

theorem fields_one {fs : List Field} {c : Codec} {i : Val} (h : (fs.map (fun f => (f.codec, f.init)) == [(c, i)]) = true) :
    ∃ f, fs = [f] ∧ f.codec = c ∧ f.init = i := by
  have h := beq_iff_eq.1 h
  have hl : fs.length = 1 := by
    have := congrArg List.length h
    simpa using this
  obtain ⟨f, rfl⟩ := List.length_eq_one_iff.1 hl
  simp only [List.map_cons, List.map_nil, List.cons.injEq, Prod.mk.injEq, and_true] at h
  exact ⟨f, rfl, h.1, h.2⟩

/-- An object that is left out is, up to the precision of the file, the one that the constructor makes. -/
theorem skipped_fresh {c : Class} {vs : List Val} {ks : List (List Obj)} (hc : c ∈ classes) (hv : KeptAll c.fields vs)
    (hg : c.name = "fGobo" → vs.head? = some (.text []) → vs = [.text [], .real zero]) (hn : ks.length = c.slots.length)
    (hs : c.skip.test vs ks = true) (hnc : c.skip ≠ .noChildren) : Same (prune (.mk c.name vs ks)) (fresh classes c.name) := by
  have hok := (table_ok c hc).1
  unfold classOk at hok
  simp only [Bool.and_eq_true] at hok
  have hsk := hok.2
  unfold skipOk at hsk
  rw [fresh, freshTo, row_of hc, prune, Same]
  have hslots : c.slots = [] → SameAll (pruneAll ks) (c.slots.map fun s => if s.how = .embedded then s.holds.map (freshTo classes 2) else []) := by
    intro h
    rw [h] at hn
    have : ks = [] := List.length_eq_zero_iff.1 hn
    subst this
    simp [h, pruneAll, SameAll]
  cases hskip : c.skip with
  | never => rw [hskip] at hs; simp [Skip.test] at hs
  | noChildren => exact absurd hskip hnc
  | identity =>
    rw [hskip] at hsk hs
    simp only [Bool.and_eq_true] at hsk
    refine ⟨rfl, ?_, hslots (beq_iff_eq.1 hsk.2)⟩
    obtain ⟨f, hf, hcod, hini⟩ := fields_one hsk.1
    rw [hf] at hv ⊢
    obtain ⟨v, rfl⟩ : ∃ v, vs = [v] := List.length_eq_one_iff.1 (keptAll_length hv)
    rw [KeptAll, hcod] at hv
    cases v <;> simp only [Skip.test, Bool.false_eq_true] at hs
    case matrix m =>
      simp only [List.map_cons, List.map_nil, CloseAll, hini, and_true]
      exact identity_close hv.1 hs
  | zero =>
    rw [hskip] at hsk hs
    simp only [Bool.and_eq_true] at hsk
    refine ⟨rfl, ?_, hslots (beq_iff_eq.1 hsk.2)⟩
    obtain ⟨f, hf, hcod, hini⟩ := fields_one hsk.1
    rw [hf] at hv ⊢
    obtain ⟨v, rfl⟩ : ∃ v, vs = [v] := List.length_eq_one_iff.1 (keptAll_length hv)
    cases v <;> simp only [Skip.test, Bool.false_eq_true] at hs
    case int i => simpa [CloseAll, hini, Close] using hs
  | noText =>
    rw [hskip] at hsk hs
    simp only [Bool.and_eq_true, Bool.or_eq_true] at hsk
    refine ⟨rfl, ?_, hslots (beq_iff_eq.1 hsk.2)⟩
    have hhead : vs.head? = some (.text []) := by
      cases vs with
      | nil => cases hs
      | cons v vs =>
        cases v <;> simp only [Skip.test, Bool.false_eq_true] at hs
        case text t => simpa using hs
    rcases hsk.1 with h1 | ⟨h1, h2⟩
    · obtain ⟨f, hf, hcod, hini⟩ := fields_one h1
      rw [hf] at hv ⊢
      obtain ⟨v, rfl⟩ : ∃ v, vs = [v] := List.length_eq_one_iff.1 (keptAll_length hv)
      simp only [List.head?_cons, Option.some.injEq] at hhead
      simp [CloseAll, hini, hhead, Close]
    · rw [hg (beq_iff_eq.1 h1) hhead]
      have : c.fields.map (·.init) = [.text [], .real Real.zero] := by
        have := congrArg (List.map Prod.snd) (beq_iff_eq.1 h2)
        simpa [List.map_map, Function.comp_def] using this
      rw [this]
      simp [CloseAll, Close, near_refl, Real.zero]

/-! ### Members -/

theorem wrap_names (cs : List Class) (s : Slot) (k : List Obj) (h : ∀ o ∈ k, o.cls ∈ s.holds) (any : Bool) :
    ∀ e ∈ s.wrap (writeList cs k) any, ∃ n ∈ tops cs s, e.name = n.toList := by
  intro e he
  unfold Slot.wrap at he
  unfold tops
  cases hb : s.wbox with
  | none =>
    rw [hb, writeList_map] at he
    obtain ⟨o, ho, rfl⟩ := List.mem_map.1 he
    exact ⟨_, List.mem_map.2 ⟨_, h o (List.mem_filter.1 ho).1, rfl⟩, write_name cs o⟩
  | some b =>
    rw [hb] at he
    simp only at he
    split at he
    · cases he
    · rw [List.mem_singleton.1 he]
      exact ⟨b, List.mem_singleton.2 rfl, rfl⟩

theorem writeSlots_names (cs : List Class) : ∀ (ss : List Slot) (ks : List (List Obj)),
    (∀ p ∈ ss.zip ks, Fits p.1 p.2) → ∀ e ∈ writeSlots cs ss ks, ∃ s ∈ ss, ∃ n ∈ tops cs s, e.name = n.toList := by
  intro ss ks
  induction ks generalizing ss with
  | nil => intro _ e he; simp [writeSlots] at he
  | cons k ks ih =>
    intro hf e he
    cases ss with
    | nil => simp [writeSlots] at he
    | cons s ss =>
      rw [writeSlots] at he
      rcases List.mem_append.1 he with he | he
      · exact ⟨s, List.mem_cons_self .., wrap_names cs s k (hf (s, k) (by simp)).1 _ e he⟩
      · obtain ⟨t, ht, h⟩ := ih ss (fun p hp => hf p (by simp [hp])) e he
        exact ⟨t, List.mem_cons_of_mem _ ht, h⟩

/-- In an array exactly the empty groups are left out. -/
theorem skipped_group {o : Obj} (h : Tree o)
    (hc : (row classes o.cls).skip = .never ∧ o.cls ≠ "SceneDataGroupObj" ∨
      (row classes o.cls).skip = .noChildren ∧ o.cls = "SceneDataGroupObj") : skipped classes o = decide (EmptyGroup o) := by
  cases h with
  | mk c vs ks hm hv hg hn hf hk =>
    simp only [Obj.cls, row_of hm] at hc
    have hok := (table_ok c hm).1
    unfold classOk at hok
    simp only [Bool.and_eq_true] at hok
    have hsk := hok.2
    unfold skipOk at hsk
    rw [skipped, row_of hm]
    rcases hc with ⟨h1, h2⟩ | ⟨h1, h2⟩
    · rw [h1]
      simp [Skip.test, EmptyGroup, h2]
    · rw [h1] at hsk ⊢
      have hne : ks ≠ [] := by
        intro e
        rw [e] at hn
        have : c.slots = [] := List.length_eq_zero_iff.1 hn.symm
        simp [this] at hsk
      have hl := List.getLast?_eq_some_getLast hne
      simp only [Skip.test, EmptyGroup, h2, hl, Option.getD_some, true_and, Option.some.injEq]
      cases ks.getLast hne <;> simp

theorem take_same {a b : List Obj} (h : SameList a b) (hl : a.length ≤ 1) : SameList a (b.take 1) := by
  match a, b, h, hl with
  | [], [], _, _ => simp [SameList]
  | [x], [y], h, _ => exact h

theorem attr_of_mem {a : Text} : ∀ {l : List (Text × Text)}, a ∈ l.map (·.1) → (l.find? (fun p => p.1 == a)).isSome = true := by
  intro l h
  rw [List.find?_isSome]
  obtain ⟨p, hp, rfl⟩ := List.mem_map.1 h
  exact ⟨p, hp, by simp⟩

theorem uuid_in : ∀ (fs : List Field) (vs : List Val), KeptAll fs vs →
    (fs.any (fun f => f.place == .attr "uuid" && f.codec == .uuid)) = true → "uuid".toList ∈ (attrsOf fs vs).map (·.1)
  | [], _, _, h => by simp at h
  | f :: fs, [], hk, _ => absurd hk (by simp [KeptAll])
  | f :: fs, v :: vs, hk, h => by
    rw [List.any_cons, Bool.or_eq_true] at h
    rw [attrsOf, List.map_append, List.mem_append]
    rcases h with h | h
    · left
      simp only [Bool.and_eq_true, beq_iff_eq] at h
      have h1 := hk.1
      rw [h.2] at h1
      rw [h.1, h.2]
      cases v <;> simp_all [Kept, enc]
    · exact .inr (uuid_in fs vs hk.2 h)

/-- An object with a UUID is written with it. -/
theorem uuid_written {o : Obj} (h : Tree o)
    (hu : (row classes o.cls).fields.any (fun f => f.place == .attr "uuid" && f.codec == .uuid) = true) :
    ((write classes o).attr? "uuid".toList).isNone = false := by
  cases h with
  | mk c vs ks hm hv hg hn hf hk =>
    simp only [Obj.cls, row_of hm] at hu
    rw [write, row_of hm]
    have := attr_of_mem (uuid_in c.fields vs hv hu)
    simp only [Scene.Xml.attr?, Option.isNone_map]
    rw [Option.isSome_iff_ne_none] at this
    simpa using this

/-- One member. -/
theorem slot_back (s : Slot) (k : List Obj) (hs : slotOk classes s = true) (hf : Fits s k) (ht : ∀ o ∈ k, Tree o)
    (rd : String → Xml → Obj) (hr : ∀ o ∈ k, Same (prune o) (rd o.cls (write classes o))) (n : Text) (at' : List (Text × Text)) (t : Text)
    (pre post : List Xml) (h1 : ∀ e ∈ pre, hears s e.name = false) (h2 : ∀ e ∈ post, hears s e.name = false) :
    SameList (pruneList k) (s.read classes rd (.elem n at' t (pre ++ s.wrap (writeList classes k) (!k.isEmpty) ++ post))) := by
  unfold slotOk at hs
  simp only [Bool.and_eq_true, List.all_eq_true] at hs
  obtain ⟨⟨⟨⟨ha, hw⟩, hsk⟩, hgr⟩, hnu⟩ := hs
  have hfound : (s.place (.elem n at' t (pre ++ s.wrap (writeList classes k) (!k.isEmpty) ++ post))).filterMap
      (fun c => (s.created c).map (fun cls => rd cls c)) = s.found rd (writeList classes k) :=
    found_place s rd n at' t pre (writeList classes k) post _ h1 h2 (beq_iff_eq.1 hw) (by
      intro h
      have : k = [] := by simpa using h
      rw [this]
      simp [writeList])
  have hfk : s.found rd (writeList classes k) = (k.filter (fun o => !skipped classes o)).map (fun o => rd o.cls (write classes o)) := by
    rw [writeList_map, Slot.found, List.filterMap_map, ← List.filterMap_eq_map]
    apply filterMap_congr'
    intro o ho
    have hc : s.created (write classes o) = some o.cls := by
      have hok := (List.mem_filter.1 ho).1
      have hnone : (s.needsUuid && ((write classes o).attr? "uuid".toList).isNone) = false := by
        cases hnu' : s.needsUuid with
        | false => rfl
        | true =>
          rw [hnu'] at hnu
          simp only [Bool.not_true, Bool.false_or, List.all_eq_true] at hnu
          rw [Bool.true_and]
          exact uuid_written (ht o hok) (hnu _ (hf.1 o hok))
      unfold Slot.created
      rw [hnone, write_name]
      exact beq_iff_eq.1 (ha _ (hf.1 o hok))
    simp [hc]
  have hgo : ∀ o ∈ k, s.how ≠ .many → o.cls ≠ "SceneDataGroupObj" := by
    intro o ho hm he
    have := hgr o.cls (hf.1 o ho)
    rw [he] at this
    simp at this
    exact hm this.2
  have hall : (∀ o ∈ k, skipped classes o = decide (EmptyGroup o)) →
      SameList (pruneList k) (s.found rd (writeList classes k)) := by
    intro h
    have hfl : k.filter (fun o => !skipped classes o) = k.filter (fun o => decide (¬ EmptyGroup o)) :=
      List.filter_congr (fun o ho => by rw [h o ho]; simp)
    rw [hfk, pruneList_eq, hfl]
    apply sameList_map
    intro o ho
    exact hr o (List.mem_filter.1 ho).1
  have hlen : (pruneList k).length ≤ k.length := by
    rw [pruneList_eq, List.length_map]
    exact List.length_filter_le ..
  have hf2 := hf.2
  unfold Slot.read
  simp only [hfound]
  cases hh : s.how with
  | many =>
    apply hall
    intro o ho
    apply skipped_group (ht o ho)
    have h3 := hsk o.cls (hf.1 o ho)
    have h4 := hgr o.cls (hf.1 o ho)
    rw [hh] at h3 h4
    simp only [Bool.or_eq_true, Bool.and_eq_true, beq_iff_eq, bne_iff_ne] at h3 h4
    rcases h3 with h3 | h3
    · left
      refine ⟨h3, ?_⟩
      rcases h4 with h4 | h4
      · exact h4
      · rw [h3] at h4; exact absurd h4.1 (by decide)
    · exact .inr h3
  | first =>
    rw [hh] at hf2
    have hf2 : k.length ≤ 1 := hf2
    refine take_same (hall ?_) (by omega)
    intro o ho
    apply skipped_group (ht o ho)
    have h3 := hsk o.cls (hf.1 o ho)
    rw [hh] at h3
    exact .inl ⟨beq_iff_eq.1 h3, hgo o ho (by rw [hh]; decide)⟩
  | needed =>
    rw [hh] at hf2
    have hf2 : k.length = 1 := hf2
    refine take_same (hall ?_) (by omega)
    intro o ho
    apply skipped_group (ht o ho)
    have h3 := hsk o.cls (hf.1 o ho)
    rw [hh] at h3
    exact .inl ⟨beq_iff_eq.1 h3, hgo o ho (by rw [hh]; decide)⟩
  | embedded =>
    rw [hh] at hf2
    obtain ⟨o, rfl⟩ : ∃ o, k = [o] := List.length_eq_one_iff.1 hf2
    have ho : o ∈ [o] := List.mem_singleton.2 rfl
    have h3 := hsk o.cls (hf.1 o ho)
    rw [hh] at h3
    simp only [Bool.and_eq_true, bne_iff_ne, beq_iff_eq] at h3
    have hng := hgo o ho (by rw [hh]; decide)
    have hne : ¬ EmptyGroup o := by
      cases o with
      | mk c vs ks => exact fun h => hng h.1
    rw [hfk, pruneList_eq]
    cases hskp : skipped classes o with
    | false =>
      simp only [hne, hskp, List.filter_cons, List.filter_nil, decide_not, decide_false, Bool.not_false, if_true, List.map_cons, List.map_nil, SameList]
      exact ⟨hr o ho, trivial⟩
    | true =>
      simp only [hne, hskp, List.filter_cons, List.filter_nil, decide_not, decide_false, Bool.not_false, Bool.not_true, Bool.false_eq_true, if_true,
        if_false, List.map_cons, List.map_nil, h3.2, SameList]
      refine ⟨?_, trivial⟩
      cases ht o ho with
      | mk c vs ks hm hv hg hn hf hk =>
        simp only [Obj.cls, row_of hm] at h3
        rw [skipped, row_of hm] at hskp
        exact skipped_fresh hm hv hg hn hskp h3.1

/-- All members. -/
theorem slots_back (rd : String → Xml → Obj) (n : Text) (at' : List (Text × Text)) (t : Text) :
    ∀ (ks : List (List Obj)) (ss : List Slot) (pre : List Xml), ks.length = ss.length →
    (∀ p ∈ ss.zip ks, Fits p.1 p.2) → (∀ s ∈ ss, slotOk classes s = true) →
    ss.Pairwise (fun s t => apart classes s t = true) → (∀ e ∈ pre, ∀ s ∈ ss, hears s e.name = false) →
    (∀ k ∈ ks, ∀ o ∈ k, Tree o) → (∀ k ∈ ks, ∀ o ∈ k, Same (prune o) (rd o.cls (write classes o))) →
    SameAll (pruneAll ks) (ss.map (fun s => s.read classes rd (.elem n at' t (pre ++ writeSlots classes ss ks)))) := by
  intro ks
  induction ks with
  | nil =>
    intro ss pre hl _ _ _ _ _ _
    have : ss = [] := List.length_eq_zero_iff.1 hl.symm
    rw [this]
    simp [pruneAll, SameAll]
  | cons k ks ih =>
    intro ss pre hl hf hs hp hpre ht hr
    cases ss with
    | nil => cases hl
    | cons s ss =>
      have hfs : Fits s k := hf (s, k) (by simp)
      rw [List.pairwise_cons] at hp
      have hrest : ∀ e ∈ writeSlots classes ss ks, hears s e.name = false := by
        intro e he
        obtain ⟨t, ht, m, hm, hnm⟩ := writeSlots_names classes ss ks (fun p hp => hf p (by simp [hp])) e he
        have h1 := hp.1 t ht
        unfold apart at h1
        rw [Bool.and_eq_true] at h1
        rw [hnm]
        simpa using List.all_eq_true.1 h1.2 _ hm
      have hown : ∀ e ∈ pre ++ s.wrap (writeList classes k) (!k.isEmpty), ∀ t ∈ ss, hears t e.name = false := by
        intro e he t ht
        rcases List.mem_append.1 he with he | he
        · exact hpre e he t (List.mem_cons_of_mem _ ht)
        · have h1 := hp.1 t ht
          unfold apart at h1
          rw [Bool.and_eq_true] at h1
          obtain ⟨m, hm, hnm⟩ := wrap_names classes s k hfs.1 _ e he
          rw [hnm]
          simpa using List.all_eq_true.1 h1.1 _ hm
      have h3 := ih ss (pre ++ s.wrap (writeList classes k) (!k.isEmpty)) (by simpa using hl) (fun p hp => hf p (by simp [hp]))
          (fun t ht => hs t (List.mem_cons_of_mem _ ht)) hp.2 hown (fun k' hk' => ht k' (List.mem_cons_of_mem _ hk'))
          (fun k' hk' => hr k' (List.mem_cons_of_mem _ hk'))
      have h4 := slot_back s k (hs s (List.mem_cons_self ..)) hfs (ht k (List.mem_cons_self ..)) rd (hr k (List.mem_cons_self ..)) n at' t pre
          (writeSlots classes ss ks) (fun e he => hpre e he s (List.mem_cons_self ..)) hrest
      rw [List.map_cons, pruneAll, writeSlots, ← List.append_assoc, SameAll]
      exact ⟨h4, h3⟩

/-- An object that is written and read is the same object, of the same class, with every value in every member of
every object in it, except that empty groups are dropped and numbers have six decimals. -/
theorem inner_back (F : Fl) (o : Obj) (h : Tree o) : Same (prune o) (read classes F o.cls (write classes o)) := by
  induction h with
  | mk c vs ks hc hv hg hn hf hk ih =>
    have hok := (table_ok c hc).1
    unfold classOk at hok
    simp only [Bool.and_eq_true, List.all_eq_true, decide_eq_true_eq] at hok
    obtain ⟨⟨⟨⟨hsl, hap⟩, hdi⟩, hst⟩, -⟩ := hok
    rw [read_eq, Obj.cls, row_of hc, prune, Same]
    refine ⟨rfl, ?_, ?_⟩
    · rw [write, row_of hc]
      exact fields_back F c.fields vs _ _ hst hdi hv
    · have := slots_back (read classes F) c.node.toList (attrsOf c.fields vs) (textOf c.fields vs) ks c.slots [] hn hf hsl hap (by simp) hk ih
      rw [write, row_of hc]
      exact this

end Verif.Mvr
