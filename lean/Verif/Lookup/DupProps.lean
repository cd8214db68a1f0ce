import Verif.Lookup.Lemmas

/-!
# C34: channels with the same geometry and attribute
-/

namespace Verif.Lookup

open Spec

abbrev Item := Option Txt × LChan

/-- Does the item have the (effective) geometry name and attribute? -/
def hit (g a : Txt) (p : Item) : Bool :=
  match p.2.attr with
  | none => false
  | some a' => eqNoCase g (p.1.getD []) && eqNoCase a a'

/-- The report for one item after others. -/
def reportOf (prev : List Item) (it : Item) : Report :=
  match it.2.attr with
  | none => .noAttribute
  | some a => if exempt it.2 a then .fine else if prev.any (hit (it.1.getD []) a) then .duplicate else .fine

/-- The reports for a list of items. -/
def flat (prev : List Item) : List Item → List Report
  | [] => []
  | it :: rest => reportOf prev it :: flat (prev ++ [it]) rest

theorem flat_append (a b prev : List Item) : flat prev (a ++ b) = flat prev a ++ flat (prev ++ a) b := by
  induction a generalizing prev with
  | nil => simp [flat]
  | cons x a ih => simp [flat, ih]

theorem flat_getElem? (its : List Item) : ∀ (prev : List Item) (k : Nat),
    (flat prev its)[k]? = its[k]?.map (reportOf (prev ++ its.take k)) := by
  induction its with
  | nil => intro prev k; simp [flat]
  | cons x its ih =>
    intro prev k
    cases k with
    | zero => simp [flat]
    | succ k => simp [flat, ih]

/-- The objects `fNoFeature` are the attributes with that name. -/
def Consistent (it : Item) : Prop := it.2.isNoFeature = true → ∀ a, it.2.attr = some a → SameName a (lit "NoFeature")

theorem exempt_iff (it : Item) (hc : Consistent it) (a : Txt) (ha : it.2.attr = some a) :
    exempt it.2 a = true ↔ SameName a (lit "NoFeature") ∨ SameName a (lit "Dummy") := by
  have h0 : eqNoCase a noFeatureText = true ↔ SameName a (lit "NoFeature") := eqNoCase_iff a noFeatureText
  unfold exempt
  rw [Bool.or_eq_true, Bool.or_eq_true, h0, eqNoCase_iff]
  constructor
  · rintro ((h | h) | h)
    · exact Or.inl (hc h a ha)
    · exact Or.inl h
    · exact Or.inr h
  · rintro (h | h)
    · exact Or.inl (Or.inr h)
    · exact Or.inr h

theorem exempt_congr (x y : Item) (hx : Consistent x) (hy : Consistent y) (a b : Txt) (ha : x.2.attr = some a)
    (hb : y.2.attr = some b) (h : SameName a b) : exempt x.2 a = exempt y.2 b := by
  rw [Bool.eq_iff_iff, exempt_iff x hx a ha, exempt_iff y hy b hb]
  constructor
  · rintro (h' | h')
    · exact Or.inl (h.symm.trans h')
    · exact Or.inr (h.symm.trans h')
  · rintro (h' | h')
    · exact Or.inl (h.trans h')
    · exact Or.inr (h.trans h')

/-- The flat reports are the specified duplicates. -/
theorem flat_iff (its : List Item) (hc : ∀ it ∈ its, Consistent it) (hg : ∀ it ∈ its, it.1 ≠ none) (k : Nat) :
    (flat [] its)[k]? = some .duplicate ↔ Repeats its k := by
  rw [flat_getElem?, List.nil_append]
  have key : ∀ (x : Item), its[k]? = some x → (reportOf (its.take k) x = .duplicate ↔ Repeats its k) := by
    intro x hx
    have hxm : x ∈ its := List.mem_of_getElem? hx
    unfold reportOf Repeats
    cases ha : x.2.attr with
    | none =>
      simp only [reduceCtorEq, false_iff]
      rintro ⟨i, x', y, g, a, g', a', hik, hx', hy, ⟨_, h1, _⟩, _⟩
      rw [hx] at hx'; cases hx'
      rw [ha] at h1; cases h1
    | some a =>
      simp only
      obtain ⟨g, hgx⟩ : ∃ g, x.1 = some g := Option.ne_none_iff_exists'.1 (hg x hxm)
      have hex := exempt_iff x (hc x hxm) a ha
      by_cases he : exempt x.2 a = true
      · rw [if_pos he]
        simp only [reduceCtorEq, false_iff]
        rintro ⟨i, x', y, g1, a1, g', a', hik, hx', hy, ⟨_, h1, h2, h3⟩, _⟩
        rw [hx] at hx'; cases hx'
        rw [ha] at h1; cases h1
        rcases hex.1 he with h | h
        · exact h2 h
        · exact h3 h
      · rw [if_neg he]
        have hne : ¬ SameName a (lit "NoFeature") ∧ ¬ SameName a (lit "Dummy") :=
          ⟨fun h => he (hex.2 (Or.inl h)), fun h => he (hex.2 (Or.inr h))⟩
        rw [hgx]
        simp only [Option.getD_some]
        constructor
        · intro h
          split at h
          · rename_i hany
            obtain ⟨y, hym, hhit⟩ := List.any_eq_true.1 hany
            obtain ⟨i, hi⟩ := List.getElem?_of_mem hym
            have hik : i < k := by
              have h1 := (List.getElem?_eq_some_iff.1 hi).1
              rw [List.length_take] at h1; omega
            rw [List.getElem?_take, if_pos hik] at hi
            unfold hit at hhit
            cases hya : y.2.attr with
            | none => rw [hya] at hhit; cases hhit
            | some a' =>
              rw [hya] at hhit
              simp only [Bool.and_eq_true] at hhit
              obtain ⟨g', hgy⟩ : ∃ g', y.1 = some g' := Option.ne_none_iff_exists'.1 (hg y (List.mem_of_getElem? hi))
              rw [hgy, Option.getD_some] at hhit
              have hs := (eqNoCase_iff _ _).1 hhit.2
              exact ⟨i, x, y, g, a, g', a', hik, hx, hi, ⟨hgx, ha, hne⟩,
                ⟨hgy, hya, fun h' => hne.1 (hs.trans h'), fun h' => hne.2 (hs.trans h')⟩,
                (eqNoCase_iff _ _).1 hhit.1, hs⟩
          · cases h
        · rintro ⟨i, x', y, g1, a1, g', a', hik, hx', hy, ⟨h0, h1, _⟩, ⟨h2, h3, _⟩, hs, hs'⟩
          rw [hx] at hx'; cases hx'
          rw [ha] at h1; cases h1
          rw [hgx] at h0; cases h0
          rw [if_pos]
          refine List.any_eq_true.2 ⟨y, ?_, ?_⟩
          · exact List.mem_of_getElem? (i := i) (by rw [List.getElem?_take, if_pos hik]; exact hy)
          · unfold hit
            rw [h3, h2]
            simp only [Option.getD_some, Bool.and_eq_true]
            exact ⟨(eqNoCase_iff _ _).2 hs, (eqNoCase_iff _ _).2 hs'⟩
  cases hx : its[k]? with
  | none =>
    simp only [Option.map_none, reduceCtorEq, false_iff]
    rintro ⟨i, x, y, g, a, g', a', _, hx', _⟩
    rw [hx] at hx'; cases hx'
  | some x => rw [Option.map_some, Option.some.injEq]; exact key x hx

/-! ### The algorithm for large modes -/

/-- The keys of the earlier items that are not exempt. -/
def KeysOf (T : Table Unit) (seen : List (Txt × Unit)) (prev : List Item) : Prop :=
  Uniq seen ∧ ∀ key, (T.find seen key).isSome = true ↔
    ∃ p ∈ prev, ∃ a, p.2.attr = some a ∧ exempt p.2 a = false ∧ SameName (pairKey (p.1.getD []) a) key

theorem pairKey_sameName (g a g' a' : Txt) (h : SameName g g') (h' : SameName a a') : SameName (pairKey g a) (pairKey g' a') := by
  rw [← makeLower_iff] at h h'
  unfold makeLower at h h'
  have : pairKey g a = pairKey g' a' := by
    unfold pairKey makeLower
    rw [List.map_append, List.map_append, List.map_append, List.map_append, h, h']
  rw [this]
  exact SameName.refl _

theorem split_bar (x y x' y' : Txt) (b : BitVec 16) (hx : b ∉ x) (hx' : b ∉ x') (h : x ++ b :: y = x' ++ b :: y') :
    x = x' ∧ y = y' := by
  induction x generalizing x' with
  | nil =>
    cases x' with
    | nil => simpa using h
    | cons c x' =>
      simp only [List.nil_append, List.cons_append, List.cons.injEq] at h
      exact absurd (by rw [h.1]; exact List.mem_cons_self) hx'
  | cons c x ih =>
    cases x' with
    | nil =>
      simp only [List.nil_append, List.cons_append, List.cons.injEq] at h
      exact absurd (by rw [h.1]; exact List.mem_cons_self) hx
    | cons c' x' =>
      simp only [List.cons_append, List.cons.injEq] at h
      obtain ⟨h1, h2⟩ := ih x' (fun hm => hx (List.mem_cons_of_mem _ hm)) (fun hm => hx' (List.mem_cons_of_mem _ hm)) h.2
      exact ⟨by rw [h.1, h1], h2⟩

theorem lowerU_bar (u : BitVec 16) (h : lowerU u = 124) : u = 124 := by
  unfold lowerU at h
  have hu := u.isLt
  rw [← BitVec.toNat_inj] at h ⊢
  split at h
  · rw [BitVec.toNat_add] at h; simp at h; omega
  · exact h

theorem sameName_append_bar (s t s' t' : Txt) (hs : (124 : BitVec 16) ∉ s) (hs' : (124 : BitVec 16) ∉ s')
    (h : makeLower (s ++ 124 :: t) = makeLower (s' ++ 124 :: t')) : SameName s s' ∧ SameName t t' := by
  unfold makeLower at h
  have e : lowerU 124 = 124 := by decide
  rw [List.map_append, List.map_append, List.map_cons, List.map_cons, e] at h
  have no : ∀ w : Txt, (124 : BitVec 16) ∉ w → (124 : BitVec 16) ∉ w.map lowerU := by
    intro w hw hm
    obtain ⟨u, hu, hu'⟩ := List.mem_map.1 hm
    exact hw (lowerU_bar u hu' ▸ hu)
  obtain ⟨h1, h2⟩ := split_bar _ _ _ _ _ (no s hs) (no s' hs') h
  exact ⟨(makeLower_iff _ _).1 h1, (makeLower_iff _ _).1 h2⟩

theorem lit_bar : lit "|" = [124] := by decide

theorem pairKey_inj (g a g' a' : Txt) (hg : (124 : BitVec 16) ∉ g) (hg' : (124 : BitVec 16) ∉ g')
    (h : SameName (pairKey g a) (pairKey g' a')) : SameName g g' ∧ SameName a a' := by
  unfold pairKey at h
  rw [lit_bar, List.append_assoc, List.append_assoc, List.singleton_append, List.singleton_append] at h
  have hl : ∀ w, SameName (makeLower w) w := by
    intro w
    rw [← makeLower_iff]
    unfold makeLower
    rw [List.map_map]
    apply List.map_congr_left
    intro u _
    rw [Function.comp_apply]
    by_cases hu : 65 ≤ u.toNat ∧ u.toNat ≤ 90
    · have h1 : lowerU u = u + 32 := if_pos hu
      have h2 : (u + 32).toNat = u.toNat + 32 := by
        rw [BitVec.toNat_add]; simp; omega
      rw [h1]
      exact if_neg (by omega)
    · have h1 : lowerU u = u := if_neg hu
      rw [h1, h1]
  have h' : SameName (g ++ 124 :: a) (g' ++ 124 :: a') := (hl _).symm.trans (h.trans (hl _))
  exact sameName_append_bar _ _ _ _ hg hg' ((makeLower_iff _ _).2 h')

/-- The set algorithm on a flat list. -/
def setFlat (T : Table Unit) : List (Txt × Unit) → List Item → List Report
  | _, [] => []
  | seen, it :: rest =>
    match it.2.attr with
    | none => .noAttribute :: setFlat T seen rest
    | some a =>
      if exempt it.2 a then .fine :: setFlat T seen rest
      else (if (T.find seen (pairKey (it.1.getD []) a)).isSome then .duplicate else .fine) ::
        setFlat T (T.emplace seen (pairKey (it.1.getD []) a) ()) rest

theorem setFlat_cons (T : Table Unit) (seen : List (Txt × Unit)) (it : Item) (rest : List Item) :
    setFlat T seen (it :: rest) = match it.2.attr with
    | none => .noAttribute :: setFlat T seen rest
    | some a =>
      if exempt it.2 a then .fine :: setFlat T seen rest
      else (if (T.find seen (pairKey (it.1.getD []) a)).isSome then .duplicate else .fine) ::
        setFlat T (T.emplace seen (pairKey (it.1.getD []) a) ()) rest := rfl

theorem logicalsSet_flat (T : Table Unit) (g : Option Txt) (ls : List LChan) (rest : List Item) :
    ∀ seen, (logicalsSet T g seen ls).2 ++ setFlat T (logicalsSet T g seen ls).1 rest =
      setFlat T seen (ls.map (fun l => (g, l)) ++ rest) := by
  induction ls with
  | nil => intro seen; simp [logicalsSet]
  | cons l ls ih =>
    intro seen
    rw [List.map_cons, List.cons_append, setFlat_cons]
    unfold logicalsSet
    cases ha : l.attr with
    | none => simp only [List.cons_append, ih]
    | some a =>
      simp only
      split
      · simp only [List.cons_append, ih]
      · simp only [List.cons_append, ih]

theorem modeSet_flat (T : Table Unit) (chans : List DChan) : ∀ seen, (modeSet T seen chans).flatten = setFlat T seen (items chans) := by
  induction chans with
  | nil => intro seen; simp [modeSet, items, setFlat]
  | cons c chans ih =>
    intro seen
    simp only [modeSet, List.flatten_cons, items, List.flatMap_cons]
    rw [ih, ← logicalsSet_flat]
    rfl

theorem setFlat_eq (T : Table Unit) (its : List Item) : ∀ (seen : List (Txt × Unit)) (prev : List Item),
    KeysOf T seen prev → (∀ it ∈ prev ++ its, Consistent it) → (∀ it ∈ prev ++ its, (124 : BitVec 16) ∉ it.1.getD []) →
    setFlat T seen its = flat prev its := by
  induction its with
  | nil => intros; rfl
  | cons it its ih =>
    intro seen prev hk hc hb
    have hc' : ∀ x ∈ (prev ++ [it]) ++ its, Consistent x := fun x hx => hc x (by simpa using hx)
    have hb' : ∀ x ∈ (prev ++ [it]) ++ its, (124 : BitVec 16) ∉ x.1.getD [] := fun x hx => hb x (by simpa using hx)
    have hit := hc it (by simp)
    unfold setFlat flat reportOf
    cases ha : it.2.attr with
    | none =>
      simp only
      rw [ih seen (prev ++ [it]) ?_ hc' hb']
      refine ⟨hk.1, fun key => (hk.2 key).trans ?_⟩
      constructor
      · rintro ⟨p, hp, h⟩; exact ⟨p, List.mem_append_left _ hp, h⟩
      · rintro ⟨p, hp, a, h1, h2⟩
        rcases List.mem_append.1 hp with hp | hp
        · exact ⟨p, hp, a, h1, h2⟩
        · rw [List.mem_singleton.1 hp, ha] at h1; cases h1
    | some a =>
      simp only
      by_cases he : exempt it.2 a = true
      · rw [if_pos he, if_pos he, ih seen (prev ++ [it]) ?_ hc' hb']
        refine ⟨hk.1, fun key => (hk.2 key).trans ?_⟩
        constructor
        · rintro ⟨p, hp, h⟩; exact ⟨p, List.mem_append_left _ hp, h⟩
        · rintro ⟨p, hp, a', h1, h2, h3⟩
          rcases List.mem_append.1 hp with hp | hp
          · exact ⟨p, hp, a', h1, h2, h3⟩
          · rw [List.mem_singleton.1 hp] at h1 h2
            rw [ha] at h1; cases h1
            rw [he] at h2; cases h2
      · rw [if_neg he, if_neg he, ih _ (prev ++ [it]) ?_ hc' hb']
        · congr 1
          have : (T.find seen (pairKey (it.1.getD []) a)).isSome = prev.any (Verif.Lookup.hit (it.1.getD []) a) := by
            rw [Bool.eq_iff_iff, hk.2, List.any_eq_true]
            constructor
            · rintro ⟨p, hp, a', h1, h2, h3⟩
              obtain ⟨h4, h5⟩ := pairKey_inj _ _ _ _ (hb p (List.mem_append_left _ hp)) (hb it (by simp)) h3
              refine ⟨p, hp, ?_⟩
              unfold Verif.Lookup.hit
              rw [h1]
              simp only [Bool.and_eq_true]
              exact ⟨(eqNoCase_iff _ _).2 h4.symm, (eqNoCase_iff _ _).2 h5.symm⟩
            · rintro ⟨p, hp, h⟩
              unfold Verif.Lookup.hit at h
              cases hpa : p.2.attr with
              | none => rw [hpa] at h; cases h
              | some a' =>
                rw [hpa] at h
                simp only [Bool.and_eq_true] at h
                have h1 := (eqNoCase_iff _ _).1 h.1
                have h2 := (eqNoCase_iff _ _).1 h.2
                refine ⟨p, hp, a', hpa, ?_, pairKey_sameName _ _ _ _ h1.symm h2.symm⟩
                rw [exempt_congr p it (hc p (List.mem_append_left _ hp)) hit a' a hpa ha h2.symm]
                simpa using he
          rw [this]
        · refine ⟨hk.1.emplace T _ _, fun key => ?_⟩
          rw [find_emplace T hk.1, Option.isSome_or, Bool.or_eq_true, hk.2]
          constructor
          · rintro (⟨p, hp, h⟩ | h)
            · exact ⟨p, List.mem_append_left _ hp, h⟩
            · refine ⟨it, by simp, a, ha, by simpa using he, ?_⟩
              by_cases hq : eqNoCase (pairKey (it.1.getD []) a) key = true
              · exact (eqNoCase_iff _ _).1 hq
              · rw [if_neg hq] at h; cases h
          · rintro ⟨p, hp, a', h1, h2, h3⟩
            rcases List.mem_append.1 hp with hp | hp
            · exact Or.inl ⟨p, hp, a', h1, h2, h3⟩
            · rw [List.mem_singleton.1 hp] at h1 h3
              rw [ha] at h1; cases h1
              right
              rw [if_pos ((eqNoCase_iff _ _).2 h3)]
              rfl

theorem keysOf_nil (T : Table Unit) : KeysOf T [] [] := ⟨uniq_nil, fun key => by simp [find_nil]⟩

/-! ### The algorithm for small modes -/

/-- The attributes of the channel as far as they are set match. -/
theorem scanDup_before (g a : Txt) (before : List DChan) (hb : ∀ c ∈ before, c.geom ≠ none) (ha : a ≠ []) (more : List Seen) :
    scanDup g a (before.map DChan.finished ++ more) = ((items before).any (hit g a) || scanDup g a more) := by
  have hempty : eqNoCase a [] = false := by
    cases a with
    | nil => exact absurd rfl ha
    | cons u a => simp [eqNoCase]
  induction before with
  | nil => simp [items]
  | cons c before ih =>
    obtain ⟨cg, hcg⟩ := Option.ne_none_iff_exists'.1 (hb c List.mem_cons_self)
    rw [List.map_cons, List.cons_append, scanDup]
    have : c.finished.geom = some cg := hcg
    rw [this]
    simp only
    rw [ih (fun c' h => hb c' (List.mem_cons_of_mem _ h))]
    simp only [items, List.flatMap_cons, List.any_append]
    rw [Bool.or_assoc]
    congr 1
    simp only [DChan.finished, List.any_map]
    congr 1
    funext l
    simp only [Function.comp_apply, hit, hcg, Option.getD_some]
    cases l.attr with
    | none => simp [hempty]
    | some a' => simp

theorem scanDup_after (g a : Txt) (after : List DChan) : scanDup g a (after.map DChan.untouched) = false := by
  cases after with
  | nil => rfl
  | cons c after => rfl

theorem logicalsScan_eq (before : List DChan) (g : Txt) (hb : ∀ c ∈ before, c.geom ≠ none) (after : List DChan)
    (ls : List LChan) : ∀ (done : List LChan), (∀ l ∈ ls, l.attr ≠ some []) →
    logicalsScan (before.map DChan.finished) (some g) (done.map (·.attr)) (after.map DChan.untouched) ls =
      flat (items before ++ done.map (fun l => (some g, l))) (ls.map (fun l => (some g, l))) := by
  induction ls with
  | nil => intros; rfl
  | cons l ls ih =>
    intro done hne
    have ih' := ih (done ++ [l]) (fun l' h => hne l' (List.mem_cons_of_mem _ h))
    rw [List.map_append, List.map_append, List.map_singleton, List.map_singleton, ← List.append_assoc] at ih'
    rw [List.map_cons]
    unfold logicalsScan flat reportOf
    cases ha : l.attr with
    | none => rw [ha] at ih'; simp only; rw [ih']
    | some a =>
      rw [ha] at ih'
      simp only
      rw [ih']
      congr 1
      have ha0 : a ≠ [] := fun h => hne l List.mem_cons_self (by rw [ha, h])
      have hempty : eqNoCase a [] = false := by
        cases a with
        | nil => exact absurd rfl ha0
        | cons u a => simp [eqNoCase]
      have this : (List.any (done.map (·.attr)) fun ca => eqNoCase g g && eqNoCase a (ca.getD [])) =
          (List.any (done.map (fun l => ((some g, l) : Item))) (hit g a)) := by
        rw [List.any_map, List.any_map]
        congr 1
        funext l'
        simp only [Function.comp_apply, hit, Option.getD_some]
        cases l'.attr with
        | none => simp [hempty]
        | some a' => simp
      have none' : (List.any (none :: List.map (fun x : LChan => (none : Option Txt)) ls)
          fun ca => eqNoCase g g && eqNoCase a (ca.getD [])) = false := by
        rw [List.any_eq_false]
        intro x hx
        have : x = none := by
          rcases List.mem_cons.1 hx with h | h
          · exact h
          · obtain ⟨_, _, h'⟩ := List.mem_map.1 h; exact h'.symm
        rw [this]; simp [hempty]
      have state : scanDup ((some g).getD []) a (before.map DChan.finished ++
          [⟨some g, done.map (·.attr) ++ none :: ls.map (fun _ => none)⟩] ++ after.map DChan.untouched) =
          (items before ++ done.map (fun l => ((some g, l) : Item))).any (hit ((some g).getD []) a) := by
        rw [List.append_assoc, scanDup_before _ _ _ hb ha0, List.singleton_append, scanDup]
        simp only
        rw [scanDup_after, Bool.or_false, List.any_append, List.any_append]
        simp only [Option.getD_some]
        rw [this, none', Bool.or_false]
      rw [state]

theorem modeScan_flat (chans : List DChan) : ∀ (before : List DChan), (∀ c ∈ before ++ chans, c.geom ≠ none) →
    (∀ c ∈ chans, ∀ l ∈ c.logicals, l.attr ≠ some []) →
    (modeScan (before.map DChan.finished) chans).flatten = flat (items before) (items chans) := by
  induction chans with
  | nil => intros; rfl
  | cons c chans ih =>
    intro before hg hne
    obtain ⟨g, hcg⟩ := Option.ne_none_iff_exists'.1 (hg c (by simp))
    have ih' := ih (before ++ [c]) (fun x hx => hg x (by simpa using hx)) (fun x hx => hne x (List.mem_cons_of_mem _ hx))
    rw [List.map_append, List.map_singleton] at ih'
    rw [modeScan, List.flatten_cons, ih']
    have h1 := logicalsScan_eq before g (fun x hx => hg x (List.mem_append_left _ hx)) chans c.logicals []
      (hne c List.mem_cons_self)
    rw [List.map_nil, List.map_nil, List.append_nil] at h1
    rw [hcg, h1]
    have h2 : items (c :: chans) = c.logicals.map (fun l => (some g, l)) ++ items chans := by
      simp [items, hcg]
    have h3 : items (before ++ [c]) = items before ++ c.logicals.map (fun l => (some g, l)) := by
      simp [items, hcg]
    rw [h2, h3, flat_append]

/-- C34 (partial): if the geometries of all channels were found, no geometry name has a `|`, and no attribute has an empty
name, then modes of every size report exactly the logical channels that repeat the geometry and attribute of an earlier one.
What is missing: the other modes, see below. -/
theorem C34_duplicates_partial (T : Table Unit) (chans : List DChan) (hg : ∀ c ∈ chans, ∃ g, c.geom = some g ∧ (124 : BitVec 16) ∉ g)
    (hne : ∀ c ∈ chans, ∀ l ∈ c.logicals, l.attr ≠ some [])
    (hc : ∀ c ∈ chans, ∀ l ∈ c.logicals, l.isNoFeature = true → ∀ a, l.attr = some a → SameName a (lit "NoFeature")) (k : Nat) :
    (modeReports T chans).flatten[k]? = some .duplicate ↔ Repeats (items chans) k := by
  have hmem : ∀ it ∈ items chans, ∃ c ∈ chans, it.1 = c.geom ∧ it.2 ∈ c.logicals := by
    intro it hit
    obtain ⟨c, hcm, h⟩ := List.mem_flatMap.1 hit
    obtain ⟨l, hl, rfl⟩ := List.mem_map.1 h
    exact ⟨c, hcm, rfl, hl⟩
  have hcons : ∀ it ∈ items chans, Consistent it := by
    intro it hit
    obtain ⟨c, hcm, _, h2⟩ := hmem it hit
    exact hc c hcm it.2 h2
  have hgeo : ∀ it ∈ items chans, it.1 ≠ none := by
    intro it hit
    obtain ⟨c, hcm, h1, _⟩ := hmem it hit
    obtain ⟨g, h, _⟩ := hg c hcm
    rw [h1, h]; simp
  have hbar : ∀ it ∈ items chans, (124 : BitVec 16) ∉ it.1.getD [] := by
    intro it hit
    obtain ⟨c, hcm, h1, _⟩ := hmem it hit
    obtain ⟨g, h, h'⟩ := hg c hcm
    rw [h1, h]; exact h'
  rw [← flat_iff (items chans) hcons hgeo]
  unfold modeReports
  split
  · rw [modeSet_flat, setFlat_eq T (items chans) [] [] (keysOf_nil T) (by simpa using hcons) (by simpa using hbar)]
  · have := modeScan_flat chans [] (fun c h => by
      obtain ⟨g, h', _⟩ := hg c (by simpa using h)
      rw [h']; simp) hne
    rw [List.map_nil] at this
    rw [this]
    rfl

/-- Channels without logical channels, to make a mode large. -/
def padding : List DChan := List.replicate 64 ⟨some (lit "x"), []⟩

theorem items_padding (chans : List DChan) : items (chans ++ padding) = items chans := by
  unfold items padding
  rw [List.flatMap_append]
  simp

/-- A channel with one logical channel. -/
def one (g : Option Txt) (a : Txt) : DChan := ⟨g, [⟨some a, false⟩]⟩

example (k : Nat) (T : Table Unit) :
    (modeReports T [one (some (lit "Head")) (lit "Pan"), one (some (lit "head")) (lit "PAN"), one (some (lit "Head")) (lit "Tilt")]).flatten[k]?
      = some .duplicate ↔ Repeats (items [one (some (lit "Head")) (lit "Pan"), one (some (lit "head")) (lit "PAN"),
        one (some (lit "Head")) (lit "Tilt")]) k := by
  refine C34_duplicates_partial T _ ?_ ?_ ?_ k
  · intro c hc
    simp only [List.mem_cons, List.not_mem_nil, or_false] at hc
    rcases hc with rfl | rfl | rfl <;> exact ⟨_, rfl, by decide +kernel⟩
  · intro c hc l hl
    simp only [List.mem_cons, List.not_mem_nil, or_false] at hc
    rcases hc with rfl | rfl | rfl <;> (simp only [one, List.mem_singleton] at hl; rw [hl]; decide +kernel)
  · intro c hc l hl
    simp only [List.mem_cons, List.not_mem_nil, or_false] at hc
    rcases hc with rfl | rfl | rfl <;> (simp only [one, List.mem_singleton] at hl; rw [hl]; simp)

theorem reports_large (T : Table Unit) (chans : List DChan) :
    (modeReports T (chans ++ padding)).flatten = setFlat T [] (items chans) := by
  unfold modeReports
  rw [if_pos (by simp [padding]), modeSet_flat, items_padding]

/-- C34 (violated): with 64 channels or more, two channels with different geometries and attributes are reported as
duplicates if a name has a `|`; in a smaller mode they are not. -/
theorem C34_bar_violated (T : Table Unit) :
    let chans := [one (some (lit "a|b")) (lit "c"), one (some (lit "a")) (lit "b|c")]
    (modeReports T (chans ++ padding)).flatten = [.fine, .duplicate] ∧ (modeReports T chans).flatten = [.fine, .fine] ∧
      ∀ k, ¬ Repeats (items chans) k := by
  intro chans
  have e1 : eqNoCase (pairKey (lit "a|b") (lit "c")) (pairKey (lit "a") (lit "b|c")) = true := by decide +kernel
  have e2 : exempt ⟨some (lit "c"), false⟩ (lit "c") = false := by decide +kernel
  have e3 : exempt ⟨some (lit "b|c"), false⟩ (lit "b|c") = false := by decide +kernel
  refine ⟨?_, by unfold modeReports; rw [if_neg (by decide)]; decide +kernel, ?_⟩
  · rw [reports_large]
    simp only [chans, items, one, List.flatMap_cons, List.flatMap_nil, List.map_cons, List.map_nil, List.append_nil,
      List.cons_append, List.nil_append, setFlat_cons, e2, e3, Option.getD_some, find_nil, find_emplace T uniq_nil, e1]
    rfl
  · rintro k ⟨i, x, y, g, a, g', a', hik, hx, hy, ⟨h1, h2, _⟩, ⟨h3, h4, _⟩, hs, hs'⟩
    have hk : k < 2 := by
      have := (List.getElem?_eq_some_iff.1 hx).1
      exact this
    have : i = 0 ∧ k = 1 := by omega
    obtain ⟨rfl, rfl⟩ := this
    simp only [chans, items, one, List.flatMap_cons, List.flatMap_nil, List.map_cons, List.map_nil, List.append_nil,
      List.cons_append, List.nil_append, List.getElem?_cons_succ, List.getElem?_cons_zero, Option.some.injEq] at hx hy
    subst hx
    subst hy
    simp only [Option.some.injEq] at h1 h2 h3 h4
    subst h2 h4
    exact absurd ((eqNoCase_iff _ _).2 hs') (by decide +kernel)

/-- C34 (violated): with less than 64 channels, nothing is reported after a channel whose geometry was not found, although
two later channels have the same geometry and attribute; in a larger mode they are reported. -/
theorem C34_unresolved_geometry_violated (T : Table Unit) :
    let chans := [one none (lit "Pan"), one (some (lit "Head")) (lit "Tilt"), one (some (lit "Head")) (lit "Tilt")]
    (modeReports T chans).flatten = [.fine, .fine, .fine] ∧
      (modeReports T (chans ++ padding)).flatten = [.fine, .fine, .duplicate] ∧ Repeats (items chans) 2 := by
  intro chans
  have e2 : exempt ⟨some (lit "Pan"), false⟩ (lit "Pan") = false := by decide +kernel
  have e3 : exempt ⟨some (lit "Tilt"), false⟩ (lit "Tilt") = false := by decide +kernel
  have e1 : eqNoCase (pairKey [] (lit "Pan")) (pairKey (lit "Head") (lit "Tilt")) = false := by decide +kernel
  have e4 : eqNoCase (lit "Tilt") (lit "NoFeature") = false := by decide +kernel
  have e5 : eqNoCase (lit "Tilt") (lit "Dummy") = false := by decide +kernel
  have n4 : ¬ SameName (lit "Tilt") (lit "NoFeature") := fun h => by rw [(eqNoCase_iff _ _).2 h] at e4; cases e4
  have n5 : ¬ SameName (lit "Tilt") (lit "Dummy") := fun h => by rw [(eqNoCase_iff _ _).2 h] at e5; cases e5
  refine ⟨by unfold modeReports; rw [if_neg (by decide)]; decide +kernel, ?_, ?_⟩
  · rw [reports_large]
    simp only [chans, items, one, List.flatMap_cons, List.flatMap_nil, List.map_cons, List.map_nil, List.append_nil,
      List.cons_append, List.nil_append, setFlat_cons, e2, e3, Option.getD_some, Option.getD_none, find_nil,
      find_emplace T (uniq_nil.emplace T _ _), find_emplace T uniq_nil, e1, eqNoCase_self]
    rfl
  · exact ⟨1, _, _, lit "Head", lit "Tilt", lit "Head", lit "Tilt", by decide, rfl, rfl, ⟨rfl, rfl, n4, n5⟩, ⟨rfl, rfl, n4, n5⟩,
      SameName.refl _, SameName.refl _⟩

/-- C34 (violated): two channels whose geometries were not found and that have the same attribute are duplicates in a mode
with 64 channels or more, but not in a smaller one. -/
theorem C34_no_geometry_violated (T : Table Unit) :
    let chans := [one none (lit "Pan"), one none (lit "Pan")]
    (modeReports T chans).flatten = [.fine, .fine] ∧ (modeReports T (chans ++ padding)).flatten = [.fine, .duplicate] := by
  intro chans
  have e2 : exempt ⟨some (lit "Pan"), false⟩ (lit "Pan") = false := by decide +kernel
  refine ⟨by unfold modeReports; rw [if_neg (by decide)]; decide +kernel, ?_⟩
  rw [reports_large]
  simp only [chans, items, one, List.flatMap_cons, List.flatMap_nil, List.map_cons, List.map_nil, List.append_nil,
    List.cons_append, List.nil_append, setFlat_cons, e2, Option.getD_none, find_nil, find_emplace T uniq_nil, eqNoCase_self]
  rfl

/-- C34 (violated): with less than 64 channels, a single channel with an attribute of empty name is reported as a duplicate
(of itself, since an attribute that is not set yet counts as empty name); in a larger mode it is not. -/
theorem C34_empty_attribute_violated (T : Table Unit) :
    let chans := [one (some (lit "Head")) []]
    (modeReports T chans).flatten = [.duplicate] ∧ (modeReports T (chans ++ padding)).flatten = [.fine] := by
  intro chans
  have e2 : exempt ⟨some [], false⟩ [] = false := by decide +kernel
  refine ⟨by unfold modeReports; rw [if_neg (by decide)]; decide +kernel, ?_⟩
  rw [reports_large]
  simp only [chans, items, one, List.flatMap_cons, List.flatMap_nil, List.map_cons, List.map_nil, List.append_nil,
    setFlat_cons, e2, find_nil]
  rfl

end Verif.Lookup
