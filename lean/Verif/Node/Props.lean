import Verif.Node.Table
import Verif.Node.Spec
import Verif.Check.AttrProps

/-!
# C52: what the library writes passes its own check; C53: what it writes it reads back
-/

namespace Verif.Node

open Verif.Lookup Verif.Lookup.Spec Verif.Check Spec

variable {V : Type}

/-! ### Attributes of a written node -/

theorem setAttr_names (n : List (String × Txt)) (a : String) (t : Txt) (b : String) :
    b ∈ (setAttr n a t).map (·.1) ↔ b = a ∨ b ∈ n.map (·.1) := by
  induction n with
  | nil => simp [setAttr]
  | cons e rest ih =>
    unfold setAttr
    by_cases he : e.1 = a
    · rw [if_pos he]
      simp only [List.map_cons, List.mem_cons]
      constructor
      · rintro (h | h); exact Or.inl h; exact Or.inr (Or.inr h)
      · rintro (h | h | h); exact Or.inl h; exact Or.inl (h.trans he); exact Or.inr h
    · rw [if_neg he]
      simp only [List.map_cons, List.mem_cons, ih]
      constructor
      · rintro (h | h | h); exact Or.inr (Or.inl h); exact Or.inl h; exact Or.inr (Or.inr h)
      · rintro (h | h | h); exact Or.inr (Or.inl h); exact Or.inl h; exact Or.inr (Or.inr h)

theorem getAttr_setAttr (n : List (String × Txt)) (a : String) (t : Txt) (b : String) :
    getAttr (setAttr n a t) b = if b = a then some t else getAttr n b := by
  induction n with
  | nil =>
    simp only [setAttr, getAttr]
    by_cases h : b = a
    · simp [h]
    · simp [h, Ne.symm h]
  | cons e rest ih =>
    unfold setAttr
    unfold getAttr at ih ⊢
    by_cases he : e.1 = a
    · rw [if_pos he]
      by_cases h : b = a
      · subst h; simp
      · simp [h, he, Ne.symm h]
    · rw [if_neg he]
      simp only [List.find?_cons]
      by_cases h : b = a
      · subst h
        have : (e.1 == b) = false := by simpa using he
        rw [this]
        simpa using ih
      · by_cases hb : (e.1 == b) = true
        · simp [hb, h]
        · rw [Bool.not_eq_true] at hb
          rw [hb]
          simpa [h] using ih

theorem write_names (k : Kind) (C : Conv V) (w : String → Bool) (o : String → V) (b : String) :
    b ∈ (k.write C w o).map (·.1) ↔ ∃ i ∈ k.writes, i.guard.holds w = true ∧ i.attr = b := by
  have gen : ∀ (l : List Item) (n : List (String × Txt)),
      (b ∈ (l.foldl (fun n i => setAttr n i.attr (C.text i o)) n).map (·.1) ↔ b ∈ n.map (·.1) ∨ ∃ i ∈ l, i.attr = b) := by
    intro l
    induction l with
    | nil => intro n; simp
    | cons i l ih =>
      intro n
      rw [List.foldl_cons, ih, setAttr_names]
      simp only [List.mem_cons, exists_eq_or_imp]
      constructor
      · rintro ((h | h) | h)
        · exact Or.inr (Or.inl h.symm)
        · exact Or.inl h
        · exact Or.inr (Or.inr h)
      · rintro (h | h | h)
        · exact Or.inl (Or.inr h)
        · exact Or.inl (Or.inl h.symm)
        · exact Or.inr h
  unfold Kind.write
  rw [gen]
  simp [List.mem_filter, and_assoc]

theorem getAttr_write (k : Kind) (C : Conv V) (w : String → Bool) (o : String → V) (i : Item) (hi : i ∈ k.writes)
    (hg : i.guard.holds w = true) (hu : ∀ j ∈ k.writes, j.guard.holds w = true → j.attr = i.attr → j = i) :
    getAttr (k.write C w o) i.attr = some (C.text i o) := by
  have gen : ∀ (l : List Item) (n : List (String × Txt)), (∀ j ∈ l, j.attr = i.attr → j = i) →
      getAttr (l.foldl (fun n i => setAttr n i.attr (C.text i o)) n) i.attr =
        if i ∈ l then some (C.text i o) else getAttr n i.attr := by
    intro l
    induction l with
    | nil => intro n _; simp
    | cons j l ih =>
      intro n h
      rw [List.foldl_cons, ih _ (fun j' hj => h j' (List.mem_cons_of_mem _ hj)), getAttr_setAttr]
      by_cases h1 : i ∈ l
      · simp [h1]
      · by_cases h2 : i.attr = j.attr
        · have := h j (List.mem_cons_self ..) h2.symm
          subst this
          simp [h1]
        · have h3 : i ≠ j := fun h => h2 (by rw [h])
          simp [h1, h2, h3]
  unfold Kind.write
  rw [gen]
  · rw [if_pos (List.mem_filter.2 ⟨hi, hg⟩)]
  · intro j hj
    rw [List.mem_filter] at hj
    exact hu j hj.1 hj.2

/-! ### The table -/

/-- An attribute is in the list whatever the conditions are. -/
def coveredBy (a : String) (l : List Entry) : Bool :=
  l.any (fun e => eqNoCase (lit a) (lit e.attr) &&
    (e.guard == .always || match e.guard with
      | .on c => l.any (fun e' => eqNoCase (lit a) (lit e'.attr) && e'.guard == .off c)
      | _ => false))

theorem coveredBy_listed {a : String} {l : List Entry} (h : coveredBy a l = true) (r : String → Bool) : Listed (lit a) (names r l) := by
  unfold coveredBy at h
  rw [List.any_eq_true] at h
  obtain ⟨e, he, h⟩ := h
  rw [Bool.and_eq_true, Bool.or_eq_true, beq_iff_eq] at h
  obtain ⟨h1, h2⟩ := h
  have pick : ∀ e ∈ l, eqNoCase (lit a) (lit e.attr) = true → e.guard.holds r = true → Listed (lit a) (names r l) :=
    fun e he h hg => ⟨lit e.attr, List.mem_map.2 ⟨e, List.mem_filter.2 ⟨he, hg⟩, rfl⟩, (eqNoCase_iff _ _).1 h⟩
  rcases h2 with h2 | h2
  · exact pick e he h1 (by rw [h2]; rfl)
  · cases hg : e.guard with
    | always => exact pick e he h1 (by rw [hg]; rfl)
    | off c => rw [hg] at h2; cases h2
    | on c =>
      rw [hg] at h2
      simp only [List.any_eq_true, Bool.and_eq_true, beq_iff_eq] at h2
      obtain ⟨e', he', h3, h4⟩ := h2
      by_cases hc : r c = true
      · exact pick e he h1 (by rw [hg]; exact hc)
      · rw [Bool.not_eq_true] at hc
        exact pick e' he' h3 (by rw [h4]; simp [Guard.holds, hc])

/-- The part of the table that concerns the check. -/
def checkOk (k : Kind) : Bool :=
  decide (k.needed.Pairwise (fun e e' => eqNoCase (lit e.attr) (lit e'.attr) = false)) &&
  k.writes.all (fun i => coveredBy i.attr (k.needed ++ k.optional)) &&
  k.needed.all (fun e => k.writes.any (fun i => i.attr == e.attr &&
    (i.guard == .always || i.guard == e.guard || match i.guard with
      | .on c => references.contains (k.name, c)
      | _ => false)))

/-- The part of the table that concerns reading. -/
def readOk (k : Kind) : Bool :=
  decide (k.reads.Pairwise (fun i j => i.field ≠ j.field)) &&
  k.writes.all (fun i => k.reads.any (fun j => j.attr == i.attr && (j.guard == .always || j.guard == i.guard) &&
    ((j.field == i.field && j.codec == i.codec) || (j.codec == .text && deferred.contains (k.name, j.field, i.field)) ||
      i.codec == .blank)))

theorem table_check : ∀ k ∈ kinds, k.checked = true → k.name ≠ "GdtfGeometryDisplay" → checkOk k = true := by
  decide +kernel

theorem table_read : ∀ k ∈ kinds, readOk k = true := by
  decide +kernel

theorem names_pairwise {l : List Entry} (h : l.Pairwise (fun e e' => eqNoCase (lit e.attr) (lit e'.attr) = false))
    (r : String → Bool) : (names r l).Pairwise (fun a b => ¬ SameName a b) := by
  unfold names
  rw [List.pairwise_map]
  refine (h.sublist List.filter_sublist).imp ?_
  intro e e' h hs
  rw [(eqNoCase_iff _ _).2 hs] at h
  cases h

theorem listed_append {a : Txt} {l l' : List Txt} : Listed a (l ++ l') ↔ Listed a l ∨ Listed a l' := by
  unfold Listed
  simp only [List.mem_append, or_and_right, exists_or]

open Classical in
/-- C52: for every kind of node except one, whatever the object contains, the check of a node written by the library reports
exactly the mandatory attributes that were not written; it never reports an unknown attribute. `w` are the conditions of the
object that was written, `r` those of the object that was read. -/
theorem C52_exact (T : Table Unit) (C : Conv V) (k : Kind) (hk : k ∈ kinds) (hd : k.name ≠ "GdtfGeometryDisplay")
    (hc : k.checked = true) (w r : String → Bool) (o : String → V) :
    k.check T r (k.write C w o) =
      ((names r k.needed).filter (fun a => decide (¬ Listed a ((k.write C w o).map (fun e => lit e.1))))).map .missing := by
  have ht := table_check k hk hc hd
  unfold checkOk at ht
  rw [Bool.and_eq_true, Bool.and_eq_true, decide_eq_true_iff] at ht
  obtain ⟨⟨h1, h2⟩, -⟩ := ht
  unfold Kind.check
  rw [if_pos hc, C32_exact T _ _ _ (names_pairwise h1 r)]
  rw [List.append_right_eq_self, List.map_eq_nil_iff, List.filter_eq_nil_iff]
  intro a ha
  rw [decide_eq_true_iff]
  obtain ⟨e, he, rfl⟩ := List.mem_map.1 ha
  have hm : e.1 ∈ (k.write C w o).map (·.1) := List.mem_map.2 ⟨e, he, rfl⟩
  obtain ⟨i, hi, -, hie⟩ := (write_names k C w o e.1).1 hm
  rw [List.all_eq_true] at h2
  have := coveredBy_listed (h2 i hi) r
  rw [hie] at this
  unfold names at this
  rw [List.filter_append, List.map_append, listed_append] at this
  rintro ⟨hx, hy⟩
  exact this.elim hx hy

/-- C52: if the references a node must have are set, and the object that was read chooses the same branches as the one that
was written, nothing is reported. -/
theorem C52_accepted_partial (T : Table Unit) (C : Conv V) (k : Kind) (hk : k ∈ kinds) (hd : k.name ≠ "GdtfGeometryDisplay")
    (w r : String → Bool) (hw : Complete k w) (hr : ∀ e ∈ k.needed, e.guard.holds r = true → e.guard.holds w = true)
    (o : String → V) : k.check T r (k.write C w o) = [] := by
  classical
  by_cases hc : k.checked = true
  · rw [C52_exact T C k hk hd hc w r o, List.map_eq_nil_iff, List.filter_eq_nil_iff]
    intro a ha
    rw [decide_eq_true_iff, Classical.not_not]
    unfold names at ha
    obtain ⟨e, he, rfl⟩ := List.mem_map.1 ha
    rw [List.mem_filter] at he
    have ht := table_check k hk hc hd
    unfold checkOk at ht
    rw [Bool.and_eq_true, Bool.and_eq_true] at ht
    have h3 := List.all_eq_true.1 ht.2 e he.1
    rw [List.any_eq_true] at h3
    obtain ⟨i, hi, h3⟩ := h3
    rw [Bool.and_eq_true, beq_iff_eq, Bool.or_eq_true, Bool.or_eq_true, beq_iff_eq, beq_iff_eq] at h3
    obtain ⟨h4, h5⟩ := h3
    have hg : i.guard.holds w = true := by
      rcases h5 with (h5 | h5) | h5
      · rw [h5]; rfl
      · rw [h5]; exact hr e he.1 he.2
      · cases hgi : i.guard with
        | always => rfl
        | off c => rw [hgi] at h5; cases h5
        | on c =>
          rw [hgi] at h5
          exact hw _ (List.contains_iff_mem.1 h5) rfl
    have hn : e.attr ∈ (k.write C w o).map (·.1) := (write_names k C w o e.attr).2 ⟨i, hi, hg, h4⟩
    obtain ⟨x, hx, hxe⟩ := List.mem_map.1 hn
    refine ⟨lit x.1, List.mem_map.2 ⟨x, hx, rfl⟩, ?_⟩
    rw [hxe]
    exact SameName.refl _
  · unfold Kind.check
    rw [if_neg hc]

/-- C52 is violated by the exceptional kind: a display that is written and read is reported to have three wrong attributes. -/
theorem C52_display_violated (T : Table Unit) (C : Conv V) (w r : String → Bool) (o : String → V) :
    kGeometryDisplay.check T r (kGeometryDisplay.write C w o) =
      [.wrong (lit "Width"), .wrong (lit "Height"), .wrong (lit "IsCurved")] := by
  unfold Kind.check
  rw [if_pos (by decide)]
  have hn : names r kGeometryDisplay.needed = [lit "Name", lit "Position", lit "Texture"] := by
    simp [names, kGeometryDisplay, Guard.holds]
  have ho : names r kGeometryDisplay.optional = [lit "Model"] := by
    simp [names, kGeometryDisplay, Guard.holds]
  rw [hn, ho, check_eq T _ _ _ (by decide +kernel)]
  cases hw : w "fModelReference"
  · have : (kGeometryDisplay.write C w o).map (fun e => lit e.1) =
        [lit "Name", lit "Position", lit "Texture", lit "Width", lit "Height", lit "IsCurved"] := by
      simp [Kind.write, kGeometryDisplay, Guard.holds, hw, setAttr]
    rw [this]
    decide +kernel
  · have : (kGeometryDisplay.write C w o).map (fun e => lit e.1) =
        [lit "Name", lit "Position", lit "Model", lit "Texture", lit "Width", lit "Height", lit "IsCurved"] := by
      simp [Kind.write, kGeometryDisplay, Guard.holds, hw, setAttr]
    rw [this]
    decide +kernel

/-! ### Reading back -/

theorem foldl_read (C : Conv V) (node : List (String × Txt)) : ∀ (l : List Item) (d : String → V) (j : Item),
    l.Pairwise (fun i j => i.field ≠ j.field) → j ∈ l →
    (l.foldl (fun o i f => if f = i.field then C.dec i.codec (getAttr node i.attr) (o f) else o f) d) j.field =
      C.dec j.codec (getAttr node j.attr) (d j.field) := by
  intro l
  have other : ∀ (l : List Item) (d : String → V) (f : String), (∀ i ∈ l, i.field ≠ f) →
      (l.foldl (fun o i f => if f = i.field then C.dec i.codec (getAttr node i.attr) (o f) else o f) d) f = d f := by
    intro l
    induction l with
    | nil => intro d f _; rfl
    | cons i l ih =>
      intro d f h
      rw [List.foldl_cons, ih _ _ (fun i hi => h i (List.mem_cons_of_mem _ hi))]
      rw [if_neg (fun h' => h i (List.mem_cons_self ..) h'.symm)]
  induction l with
  | nil => intro d j _ hj; cases hj
  | cons i l ih =>
    intro d j hp hj
    rw [List.pairwise_cons] at hp
    rw [List.foldl_cons]
    rcases List.mem_cons.1 hj with rfl | hj
    · rw [other l _ _ (fun i hi => (hp.1 i hi).symm), if_pos rfl]
    · rw [ih _ j hp.2 hj, if_neg (fun h => hp.1 j hj h.symm)]

/-- C53: every attribute that is written is read again, for every kind of node and every object: into the member it was written
from and with the same converter, or as text into the member from which that member is resolved later. `i` is the statement that
writes it, the only one that is executed for its attribute. -/
theorem C53_read_back (C : Conv V) (k : Kind) (hk : k ∈ kinds) (w r : String → Bool) (o d : String → V) (i : Item)
    (hi : i ∈ k.writes) (hg : i.guard.holds w = true)
    (hu : ∀ j ∈ k.writes, j.guard.holds w = true → j.attr = i.attr → j = i)
    (hr : i.guard.holds r = i.guard.holds w) :
    (i.codec ≠ .blank → (k.read C r d (k.write C w o)) i.field = C.dec i.codec (some (C.enc i.codec (o i.field))) (d i.field) ∨
      ∃ u, (k.name, u, i.field) ∈ deferred ∧
        (k.read C r d (k.write C w o)) u = C.dec .text (some (C.enc i.codec (o i.field))) (d u)) := by
  have ht := table_read k hk
  unfold readOk at ht
  rw [Bool.and_eq_true, decide_eq_true_iff] at ht
  obtain ⟨h1, h2⟩ := ht
  have h3 := List.all_eq_true.1 h2 i hi
  rw [List.any_eq_true] at h3
  obtain ⟨j, hj, h3⟩ := h3
  simp only [Bool.and_eq_true, Bool.or_eq_true, beq_iff_eq] at h3
  obtain ⟨⟨h4, h5⟩, h6⟩ := h3
  have hgj : j.guard.holds r = true := by
    rcases h5 with h5 | h5
    · rw [h5]; rfl
    · rw [h5, hr, hg]
  intro hb
  have hv := foldl_read C (k.write C w o) (k.reads.filter (fun i => i.guard.holds r)) d j
    (h1.sublist List.filter_sublist) (List.mem_filter.2 ⟨hj, hgj⟩)
  rw [h4, getAttr_write k C w o i hi hg hu] at hv
  unfold Conv.text at hv
  rw [if_neg hb] at hv
  rcases h6 with (⟨h7, h8⟩ | ⟨h7, h8⟩) | h6
  · left
    unfold Kind.read
    rw [h7, h8] at hv
    exact hv
  · right
    refine ⟨j.field, List.contains_iff_mem.1 h8, ?_⟩
    rw [h7] at hv
    exact hv
  · exact absurd h6 hb

/-- C53: a member whose converter gives back its value is unchanged, if it is not one that is resolved later. -/
theorem C53_value (C : Conv V) (k : Kind) (hk : k ∈ kinds) (w r : String → Bool) (o d : String → V) (i : Item)
    (hi : i ∈ k.writes) (hg : i.guard.holds w = true)
    (hu : ∀ j ∈ k.writes, j.guard.holds w = true → j.attr = i.attr → j = i)
    (hr : i.guard.holds r = i.guard.holds w) (hb : i.codec ≠ .blank) (hd : ∀ u, (k.name, u, i.field) ∉ deferred)
    (hc : ∀ v old, C.dec i.codec (some (C.enc i.codec v)) old = v) :
    (k.read C r d (k.write C w o)) i.field = o i.field := by
  rcases C53_read_back C k hk w r o d i hi hg hu hr hb with h | ⟨u, h, -⟩
  · rw [h, hc]
  · exact absurd h (hd u)

/-- Two conditions that cannot hold together. -/
def exclusive : Guard → Guard → Bool
  | .on c, .off c' => c == c'
  | .off c, .on c' => c == c'
  | _, _ => false

/-- C53: the hypothesis of `C53_read_back` on `i` always holds, except for a channel function that has two mode masters. -/
theorem C53_one_statement (k : Kind) (hk : k ∈ kinds) (w : String → Bool)
    (hm : k.name = "GdtfDmxChannelFunction" → ¬ (w "fModeMaster_Channel" = true ∧ w "fModeMaster_Function" = true))
    (i j : Item) (hi : i ∈ k.writes) (hj : j ∈ k.writes) (hgi : i.guard.holds w = true) (hgj : j.guard.holds w = true)
    (h : j.attr = i.attr) : j = i := by
  have table : ∀ k ∈ kinds, ∀ i ∈ k.writes, ∀ j ∈ k.writes, j.attr = i.attr → j = i ∨ exclusive i.guard j.guard = true ∨
      (k.name = "GdtfDmxChannelFunction" ∧
        ((i.guard = .on "fModeMaster_Channel" ∧ j.guard = .on "fModeMaster_Function") ∨
         (j.guard = .on "fModeMaster_Channel" ∧ i.guard = .on "fModeMaster_Function"))) := by
    decide +kernel
  rcases table k hk i hi j hj h with h | h | ⟨h, h'⟩
  · exact h
  · exfalso
    cases hi' : i.guard <;> cases hj' : j.guard <;> rw [hi', hj'] at h <;> simp [exclusive] at h
    all_goals
      subst h
      rw [hi'] at hgi
      rw [hj'] at hgj
      simp_all [Guard.holds]
  · exfalso
    rcases h' with ⟨h1, h2⟩ | ⟨h1, h2⟩
    · rw [h1] at hgi; rw [h2] at hgj; exact hm h ⟨hgi, hgj⟩
    · rw [h1] at hgj; rw [h2] at hgi; exact hm h ⟨hgj, hgi⟩

/-! ### Examples -/

/-- Converters of the examples: values are texts. -/
def demoConv : Conv Txt where
  enc := fun _ v => v
  dec := fun _ t old => t.getD old

/-- A model with all attributes; the name comes back, and nothing is reported. -/
example (T : Table Unit) (o d : String → Txt) :
    (kModel.read demoConv (fun _ => true) d (kModel.write demoConv (fun _ => true) o)) "fWidth" = o "fWidth" ∧
    kModel.check T (fun _ => true) (kModel.write demoConv (fun _ => true) o) = [] :=
  ⟨C53_value demoConv kModel (by decide +kernel) _ _ o d ⟨"Width", "fWidth", .val "ConvertDouble", .always⟩ (by decide +kernel) rfl
      (fun j hj hg h => C53_one_statement kModel (by decide +kernel) (fun _ => true) (by decide +kernel) _ j (by decide +kernel) hj rfl hg h)
      rfl (by decide) (by
        intro u hu
        have : ∀ p ∈ deferred, p.1 = "GdtfModel" → False := by decide +kernel
        exact this _ hu rfl) (fun _ _ => rfl),
    C52_accepted_partial T demoConv kModel (by decide +kernel) (by decide +kernel) _ _ (fun _ _ _ => rfl) (fun _ _ h => h) o⟩

/-- An attribute without feature is reported when it is read again. -/
example (T : Table Unit) (o : String → Txt) :
    kAttribute.check T (fun _ => false) (kAttribute.write demoConv (fun _ => false) o) = [.missing (lit "Feature")] := by
  rw [C52_exact T demoConv kAttribute (by decide +kernel) (by decide) (by decide)]
  have hw : (kAttribute.write demoConv (fun _ => false) o).map (fun e => lit e.1) = [lit "Name", lit "Pretty", lit "PhysicalUnit"] := by
    simp [Kind.write, kAttribute, Guard.holds, setAttr]
  have hn : names (fun _ => false) kAttribute.needed = [lit "Name", lit "Pretty", lit "Feature"] := by
    simp [names, kAttribute, Guard.holds]
  rw [hw, hn]
  simp only [listed_iff]
  decide +kernel

end Verif.Node
