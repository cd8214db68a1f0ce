import Verif.Check.Spec
import Verif.Lookup.Lemmas

/-!
# C32: checking the attributes of XML nodes
-/

namespace Verif.Check

open Verif.Lookup Verif.Lookup.Spec Spec

theorem erase_find (T : Table Unit) (l : List (Txt × Unit)) (k k' : Txt) :
    (T.find (erase T l k).1 k').isSome = true ↔ (T.find l k').isSome = true ∧ ¬ SameName k k' := by
  have key : ∀ (l' : List (Txt × Unit)), (T.find l' k').isSome = true ↔ ∃ e ∈ l', SameName e.1 k' := by
    intro l'
    rw [← Option.ne_none_iff_isSome, ne_eq, find_eq_none]
    constructor
    · intro h
      refine Classical.byContradiction (fun hn => h (fun e he hs => hn ⟨e, he, hs⟩))
    · rintro ⟨e, he, hs⟩ h
      exact h e he hs
  have hm : ∀ e, e ∈ (erase T l k).1 ↔ e ∈ l ∧ ¬ SameName e.1 k := by
    intro e
    unfold erase
    rw [List.mem_filter]
    refine and_congr_right (fun _ => ?_)
    by_cases hb : eqNoCase e.1 k = true
    · have hs := (eqNoCase_iff _ _).1 hb
      have : T.bucket l.length e.1 = T.bucket l.length k := by
        unfold Table.bucket; rw [(makeLower_iff _ _).2 hs]
      rw [this, hb]
      simpa using hs
    · rw [Bool.not_eq_true] at hb
      rw [hb]
      simp only [Bool.and_false, Bool.not_false, true_iff]
      intro hs
      rw [(eqNoCase_iff _ _).2 hs] at hb
      cases hb
  rw [key, key]
  constructor
  · rintro ⟨e, he, hs⟩
    obtain ⟨h1, h2⟩ := (hm e).1 he
    exact ⟨⟨e, h1, hs⟩, fun h => h2 (hs.trans h.symm)⟩
  · rintro ⟨⟨e, he, hs⟩, h⟩
    exact ⟨e, (hm e).2 ⟨he, fun h' => h (h'.symm.trans hs)⟩, hs⟩

theorem erase_snd (T : Table Unit) (l : List (Txt × Unit)) (k : Txt) : (erase T l k).2 = (T.find l k).isSome := rfl

theorem attrSet_find (T : Table Unit) (raw : List Txt) (k : Txt) : (T.find (attrSet T raw) k).isSome = true ↔ Listed k raw := by
  have : ∀ (raw : List Txt) (s : List (Txt × Unit)), Uniq s →
      ((T.find (raw.foldl (fun s a => T.emplace s a ()) s) k).isSome = true ↔
        (T.find s k).isSome = true ∨ Listed k raw) := by
    intro raw
    induction raw with
    | nil => intro s _; simp [Listed]
    | cons a raw ih =>
      intro s hu
      rw [List.foldl_cons, ih _ (hu.emplace T _ _), find_emplace T hu, Option.isSome_or, Bool.or_eq_true]
      have h1 : ((if eqNoCase a k = true then some () else none).isSome = true) ↔ SameName k a := by
        by_cases hb : eqNoCase a k = true
        · rw [if_pos hb]; simp only [Option.isSome_some, true_iff]; exact ((eqNoCase_iff _ _).1 hb).symm
        · rw [if_neg hb]; simp only [Option.isSome_none, Bool.false_eq_true, false_iff]
          exact fun h => hb ((eqNoCase_iff _ _).2 h.symm)
      rw [h1]
      unfold Listed
      simp only [List.mem_cons, exists_eq_or_imp]
      exact or_assoc
  unfold attrSet
  rw [this raw [] uniq_nil, find_nil]
  simp

theorem checkNeeded_spec (T : Table Unit) (needed : List Txt) : ∀ (s : List (Txt × Unit)),
    needed.Pairwise (fun a b => ¬ SameName a b) →
    (∀ k, (T.find (checkNeeded T s needed).1 k).isSome = true ↔ (T.find s k).isSome = true ∧ ¬ Listed k needed) ∧
    (checkNeeded T s needed).2 = (needed.filter (fun a => (T.find s a).isNone)).map .missing := by
  induction needed with
  | nil => intro s _; exact ⟨fun k => by simp [checkNeeded, Listed], rfl⟩
  | cons a needed ih =>
    intro s hp
    rw [List.pairwise_cons] at hp
    obtain ⟨h1, h2⟩ := ih (erase T s a).1 hp.2
    constructor
    · intro k
      simp only [checkNeeded]
      rw [h1, erase_find]
      unfold Listed
      simp only [List.mem_cons, exists_eq_or_imp, not_or]
      constructor
      · rintro ⟨⟨h3, h4⟩, h5⟩; exact ⟨h3, fun h => h4 h.symm, h5⟩
      · rintro ⟨h3, h4, h5⟩; exact ⟨⟨h3, fun h => h4 h.symm⟩, h5⟩
    · simp only [checkNeeded]
      rw [h2, erase_snd, List.filter_cons]
      have hf : needed.filter (fun b => (T.find (erase T s a).1 b).isNone) = needed.filter (fun b => (T.find s b).isNone) := by
        apply List.filter_congr
        intro b hb
        have := erase_find T s a b
        rw [Bool.eq_iff_iff, ← Option.not_isSome, ← Option.not_isSome, Bool.not_eq_true', Bool.not_eq_true',
          ← Bool.not_eq_true, ← Bool.not_eq_true, this]
        constructor
        · intro h h'; exact h ⟨h', hp.1 b hb⟩
        · intro h h'; exact h h'.1
      rw [hf]
      cases hs : T.find s a with
      | some u => simp
      | none => simp

theorem eraseAll_find (T : Table Unit) (opt : List Txt) (k : Txt) : ∀ (s : List (Txt × Unit)),
    (T.find (opt.foldl (fun s a => (erase T s a).1) s) k).isSome = true ↔ (T.find s k).isSome = true ∧ ¬ Listed k opt := by
  induction opt with
  | nil => intro s; simp [Listed]
  | cons a opt ih =>
    intro s
    rw [List.foldl_cons, ih, erase_find]
    unfold Listed
    simp only [List.mem_cons, exists_eq_or_imp, not_or]
    constructor
    · rintro ⟨⟨h3, h4⟩, h5⟩; exact ⟨h3, fun h => h4 h.symm, h5⟩
    · rintro ⟨h3, h4, h5⟩; exact ⟨⟨h3, fun h => h4 h.symm⟩, h5⟩

open Classical in
/-- C32: if no mandatory attribute is listed twice, the errors are exactly one "missing" per mandatory attribute the node does
not have, in the order of the mandatory attributes, followed by one "wrong" per attribute of the node that is neither mandatory
nor optional, in the order of the node. Names are compared up to case. -/
theorem C32_exact (T : Table Unit) (raw needed optional : List Txt) (hn : needed.Pairwise (fun a b => ¬ SameName a b)) :
    checkNodeAttributes T raw needed optional =
      (needed.filter (fun a => decide (¬ Listed a raw))).map .missing ++
      (raw.filter (fun a => decide (¬ Listed a needed ∧ ¬ Listed a optional))).map .wrong := by
  obtain ⟨h1, h2⟩ := checkNeeded_spec T needed (attrSet T raw) hn
  unfold checkNodeAttributes
  simp only
  rw [h2]
  congr 2
  · apply List.filter_congr
    intro a _
    have := attrSet_find T raw a
    by_cases hl : Listed a raw
    · simp [this.2 hl, hl]
    · have h3 : ¬ (T.find (attrSet T raw) a).isSome = true := fun h => hl (this.1 h)
      simp only [Bool.not_eq_true, Option.isSome_eq_false_iff] at h3
      simp [h3, hl]
  · apply List.filter_congr
    intro a ha
    have hraw : Listed a raw := ⟨a, ha, SameName.refl a⟩
    rw [Bool.eq_iff_iff, eraseAll_find, h1, attrSet_find, decide_eq_true_iff]
    constructor
    · rintro ⟨⟨_, h3⟩, h4⟩; exact ⟨h3, h4⟩
    · rintro ⟨h3, h4⟩; exact ⟨⟨hraw, h3⟩, h4⟩

/-- C32: nothing is reported exactly when every mandatory attribute is there and every attribute is known. -/
theorem C32_accepted (T : Table Unit) (raw needed optional : List Txt) (hn : needed.Pairwise (fun a b => ¬ SameName a b)) :
    checkNodeAttributes T raw needed optional = [] ↔
      (∀ a ∈ needed, Listed a raw) ∧ (∀ a ∈ raw, Listed a needed ∨ Listed a optional) := by
  classical
  rw [C32_exact T raw needed optional hn, List.append_eq_nil_iff, List.map_eq_nil_iff, List.map_eq_nil_iff,
    List.filter_eq_nil_iff, List.filter_eq_nil_iff]
  simp only [decide_eq_true_iff, Classical.not_not]
  refine and_congr_right (fun _ => ?_)
  constructor
  · intro h a ha
    have := h a ha
    exact Classical.byContradiction (fun h' => this ⟨fun h1 => h' (Or.inl h1), fun h1 => h' (Or.inr h1)⟩)
  · rintro h a ha ⟨h1, h2⟩
    rcases h a ha with h3 | h3
    · exact h1 h3
    · exact h2 h3

/-- C32: the hypothesis is needed: a mandatory attribute that is listed twice is reported as missing although it is there. -/
theorem C32_listed_twice (T : Table Unit) (a : Txt) : checkNodeAttributes T [a] [a, a] [] = [.missing a] := by
  have e1 : (T.find (attrSet T [a]) a).isSome = true := (attrSet_find T [a] a).2 ⟨a, by simp, SameName.refl a⟩
  have e2 : (T.find (erase T (attrSet T [a]) a).1 a).isSome = false := by
    rw [← Bool.not_eq_true, erase_find]
    exact fun h => h.2 (SameName.refl a)
  have e3 : (T.find (erase T (erase T (attrSet T [a]) a).1 a).1 a).isSome = false := by
    rw [← Bool.not_eq_true, erase_find]
    exact fun h => h.2 (SameName.refl a)
  simp [checkNodeAttributes, checkNeeded, erase_snd, e1, e2, e3]

theorem listed_iff (a : Txt) (l : List Txt) : Listed a l ↔ l.any (eqNoCase a) = true := by
  unfold Listed
  rw [List.any_eq_true]
  simp only [eqNoCase_iff]

/-- The computable form of `C32_exact`. -/
theorem check_eq (T : Table Unit) (raw needed optional : List Txt) (hn : needed.Pairwise (fun a b => eqNoCase a b = false)) :
    checkNodeAttributes T raw needed optional =
      (needed.filter (fun a => !raw.any (eqNoCase a))).map .missing ++
      (raw.filter (fun a => !needed.any (eqNoCase a) && !optional.any (eqNoCase a))).map .wrong := by
  classical
  rw [C32_exact T raw needed optional (hn.imp (fun h hs => by rw [(eqNoCase_iff _ _).2 hs] at h; cases h))]
  congr 2
  · apply List.filter_congr
    intro a _
    rw [Bool.eq_iff_iff, decide_eq_true_iff, listed_iff, Bool.not_eq_true', Bool.not_eq_true]
  · apply List.filter_congr
    intro a _
    rw [Bool.eq_iff_iff, decide_eq_true_iff, listed_iff, listed_iff, Bool.and_eq_true, Bool.not_eq_true', Bool.not_eq_true',
      Bool.not_eq_true, Bool.not_eq_true]

/-- A node with one attribute in other case, one missing and one unknown. -/
example (T : Table Unit) : checkNodeAttributes T [lit "NAME", lit "Foo", lit "Model"] [lit "Name", lit "Position"] [lit "Model"] =
    [.missing (lit "Position"), .wrong (lit "Foo")] := by
  rw [check_eq T _ _ _ (by decide +kernel)]
  decide +kernel

end Verif.Check
