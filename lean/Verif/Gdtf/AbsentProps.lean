import Verif.Gdtf.AbsentLemmas

/-!
# C85: attributes that a description leaves out, and members that the library leaves without a value
-/

namespace Verif.Gdtf

open Spec
open Verif.Lookup (Txt)
open Verif.Real Verif.Text Verif.Dmx Verif.Enum
open Verif.Node (Item Kind kinds getAttr)

/-! ### One object -/

theorem schema_dec (F : Fl) (init : String → Members) (fresh : String → Obj Members) (k : Kind) (hk : k ∈ kinds) (node : Attrs) :
    (valueSchema F init fresh).dec k.name node = after k.name node (unread k.name node (init k.name) (readNow F k.reads node (init k.name))) := by
  simp only [valueSchema, table_find k hk]

theorem table_reads_own : ∀ k ∈ kinds, ∀ j ∈ k.reads, j.field ≠ "fHasColor" ∧ j.field ≠ "fSetPhysical" ∧ j.field ≠ "fHasLinkedGuid" ∧
    (k.name = "GdtfFixture" → j.field = "fName" → j.codec = .text) := by decide +kernel

theorem table_skips_read : ∀ k ∈ kinds, ∀ j ∈ k.reads, ∀ s ∈ skips, s.1 = k.name → s.2.2 = j.field → s.2.1 = j.attr := by decide +kernel

/-- The member without the attribute: what the constructor left, or what the converter assigns. -/
theorem value_gone (F : Fl) (m : Memory) (fresh : String → Obj Members) (n : Nat) (k : Kind) (hk : k ∈ kinds) (j : Item) (hj : j ∈ k.reads)
    (hc : j.codec ≠ .text) (node : Attrs) (h : LeftOut node j.attr) :
    (getAttr node j.attr = none ∧ skipped k.name j.field = true ∧ valueOf F m fresh n k.name node j.field = ctor m k.name j.field) ∨
    ((getAttr node j.attr = none → skipped k.name j.field = false) ∧
      (valueOf F m fresh n k.name node j.field = dmxValue F n ((conv F).dec j.codec none (ctor m k.name j.field)) ∨
      (j.guard ≠ .always ∧ valueOf F m fresh n k.name node j.field = ctor m k.name j.field))) := by
  obtain ⟨o1, o2, o3, o4⟩ := table_reads_own k hk j hj
  have hv : valueOf F m fresh n k.name node j.field =
      dmxValue F n (unread k.name node (ctor m k.name) (readNow F k.reads node (ctor m k.name)) j.field) := by
    unfold valueOf
    rw [schema_dec F (ctor m) fresh k hk node, after_other _ _ _ _ o1 o2 o3 (fun e1 e2 => hc (o4 e1 e2))]
  have hdm := dmx_final F n _ (final_ctor m k hk j hj)
  rw [hv]
  by_cases hs : getAttr node j.attr = none ∧ skipped k.name j.field = true
  · refine Or.inl ⟨hs.1, hs.2, ?_⟩
    unfold unread
    rw [if_pos, hdm]
    obtain ⟨s, hs1, hs2⟩ := List.any_eq_true.1 hs.2
    rw [Bool.and_eq_true, beq_iff_eq, beq_iff_eq] at hs2
    refine List.any_eq_true.2 ⟨s, hs1, ?_⟩
    rw [table_skips_read k hk j hj s hs1 hs2.1 hs2.2, hs.1]
    simp [hs2.1, hs2.2]
  · right
    refine ⟨fun e => by simpa [e] using hs, ?_⟩
    rw [unread_there]
    · rcases readNow_either F k hk node (ctor m k.name) j hj with hr | ⟨hg, hr⟩
      · left
        rw [hr]
        rcases h with h | h
        · rw [h]
        · rw [h]
          have := table_absent_cv k hk j hj hc
          cases hcv : cvOf j.codec with
          | none => rw [hcv] at this; cases this
          | some cv =>
            rw [hcv] at this
            simp only [conv, hcv]
            rw [dec_empty F cv _ (by simpa using this)]
      · right
        rw [hr, hdm]
        exact ⟨hg, rfl⟩
    · intro s hs1 h1 h2 h3
      rw [table_skips_read k hk j hj s hs1 h1 h2] at h3
      exact hs ⟨h3, List.any_eq_true.2 ⟨s, hs1, by simp [h1, h2]⟩⟩

/-- The check of the defaults: what the constructor leaves, and what the converter assigns. -/
def fits (k : Kind) (j : Item) (v : Val) : Bool :=
  (if skipped k.name j.field then ctor zeros k.name j.field == v && (j.attr == "Highlight" || without k j == v) else without k j == v) &&
  (decide (j.guard = .always) || ctor zeros k.name j.field == v) &&
  (match unset.find? (fun p => p.1 == (k.name, j.field)) with
    | some p => !p.2.lasting
    | none => true)

theorem table_defaults : ∀ k ∈ kinds, ∀ j ∈ k.reads, j.codec ≠ .text → ∀ p ∈ defaults, p.1 = k.name → ∀ q ∈ p.2, q.1 = j.attr →
    (k.name = "GdtfGeometryLamp" ∧ j.attr = "BeamRadius") ∨ fits k j q.2 = true := by
  decide +kernel

theorem table_positions : ∀ k ∈ kinds, ∀ j ∈ k.reads, j.attr = "Position" → fits k j (.matrix unitMatrix) = true := by
  decide +kernel

theorem table_texts_defaults : ∀ k ∈ kinds, ∀ j ∈ k.reads, j.codec = .text → j.attr ≠ "Position" ∧
    ∀ p ∈ defaults, p.1 = k.name → ∀ q ∈ p.2, q.1 ≠ j.attr := by
  decide +kernel

theorem fits_value (F : Fl) (m : Memory) (fresh : String → Obj Members) (n : Nat) (k : Kind) (hk : k ∈ kinds) (j : Item) (hj : j ∈ k.reads)
    (hc : j.codec ≠ .text) (v : Val) (hf : fits k j v = true) (node : Attrs) (h : LeftOut node j.attr)
    (hh : j.attr = "Highlight" → getAttr node j.attr = none) : valueOf F m fresh n k.name node j.field = v := by
  unfold fits at hf
  rw [Bool.and_eq_true, Bool.and_eq_true] at hf
  obtain ⟨⟨h1, h2⟩, h3⟩ := hf
  have hlast : ∀ p, unset.find? (fun p => p.1 == (k.name, j.field)) = some p → p.2.lasting = false := by
    intro p hp
    rw [hp] at h3
    simpa using h3
  have hz : ctor zeros k.name j.field = v → unset.find? (fun p => p.1 == (k.name, j.field)) = none → ctor m k.name j.field = v := by
    intro e hu
    rw [ctor_made m _ _ hu, ← ctor_made zeros _ _ hu, e]
  have hu := table_unset k hk j hj
  have hw : dmxValue F n ((conv F).dec j.codec none (ctor m k.name j.field)) = without k j := by
    unfold without
    rw [gone_same F m zeros k hk j hj none (by
      intro p hp hl
      rw [hlast p hp] at hl
      cases hl)]
    have hcv := table_absent_cv k hk j hj hc
    cases hcv' : cvOf j.codec with
    | none => rw [hcv'] at hcv; cases hcv
    | some cv =>
      simp only [conv, hcv']
      exact dmx_dec F n cv _ (final_ctor zeros k hk j hj)
  rcases value_gone F m fresh n k hk j hj hc node h with ⟨_, hs, hv⟩ | ⟨hs, hv | ⟨hg, hv⟩⟩
  · rw [hv]
    rw [if_pos hs, Bool.and_eq_true, beq_iff_eq] at h1
    apply hz h1.1
    cases hfd : unset.find? (fun p => p.1 == (k.name, j.field)) with
    | none => rfl
    | some p => rw [hfd, hs] at hu; simp at hu
  · rw [hv, hw]
    split at h1
    · rename_i hsk
      rw [Bool.and_eq_true, Bool.or_eq_true, beq_iff_eq, beq_iff_eq, beq_iff_eq] at h1
      rcases h1.2 with e | e
      · rw [hs (hh e)] at hsk
        cases hsk
      · exact e
    · exact beq_iff_eq.1 h1
  · rw [hv]
    rw [Bool.or_eq_true, decide_eq_true_iff, beq_iff_eq] at h2
    apply hz (h2.resolve_left hg)
    cases hfd : unset.find? (fun p => p.1 == (k.name, j.field)) with
    | none => rfl
    | some p => rw [hfd] at hu; simp [hg] at hu

/-- **C85, defaults.** An attribute that is not in the file, or that is empty, gives the member its default value, whatever else is in the node
and whatever was in the memory; the exceptions are the radius of a beam, and an empty highlight value (which is zero, not "None"). -/
theorem C85_default_partial (F : Fl) (m : Memory) (fresh : String → Obj Members) (n : Nat) (cls attr f : String) (v : Val)
    (hr : ReadFrom cls attr f) (hd : Default cls attr v) (hb : ¬ (cls = "GdtfGeometryLamp" ∧ attr = "BeamRadius")) (node : Attrs)
    (h : LeftOut node attr) (hh : attr = "Highlight" → getAttr node attr = none) : valueOf F m fresh n cls node f = v := by
  obtain ⟨k, hk, rfl, j, hj, rfl, rfl⟩ := hr
  by_cases hc : j.codec = .text
  · obtain ⟨t1, t2⟩ := table_texts_defaults k hk j hj hc
    rcases hd with ⟨e, -⟩ | ⟨l, hl, hv⟩
    · exact absurd e t1
    · exact absurd rfl (t2 _ hl rfl _ hv)
  refine fits_value F m fresh n k hk j hj hc v ?_ node h hh
  rcases hd with ⟨e, rfl⟩ | ⟨l, hl, hv⟩
  · exact table_positions k hk j hj e
  · exact (table_defaults k hk j hj hc _ hl rfl _ hv rfl).resolve_left hb

theorem table_made_texts : ∀ k ∈ kinds, ∀ j ∈ k.reads, j.codec = .text → made k.name j.field = .text [] ∧
    unset.find? (fun p => p.1 == (k.name, j.field)) = none ∧ skipped k.name j.field = false ∧ j.guard = .always := by
  decide +kernel

/-- **C85, texts.** A text or a reference that is not in the file is empty. -/
theorem C85_text (F : Fl) (m : Memory) (fresh : String → Obj Members) (n : Nat) (k : Kind) (hk : k ∈ kinds) (j : Item) (hj : j ∈ k.reads)
    (hc : j.codec = .text) (node : Attrs) (h : LeftOut node j.attr) : valueOf F m fresh n k.name node j.field = .text [] := by
  obtain ⟨t1, t2, t3, t4⟩ := table_made_texts k hk j hj hc
  obtain ⟨o1, o2, o3, o4⟩ := table_reads_own k hk j hj
  have hrd : unread k.name node (ctor m k.name) (readNow F k.reads node (ctor m k.name)) j.field = .text [] := by
    rw [unread_other, readNow_mem F k hk node _ j hj t4, hc, ctor_made m _ _ t2, t1]
    · rcases h with h | h
      · rw [h]; rfl
      · rw [h]; rfl
    · intro s hs h1 h2
      have : skipped k.name j.field = true := List.any_eq_true.2 ⟨s, hs, by simp [h1, h2]⟩
      rw [t3] at this
      cases this
  unfold valueOf
  rw [schema_dec F (ctor m) fresh k hk node]
  by_cases hfix : k.name = "GdtfFixture" ∧ j.field = "fName"
  · obtain ⟨e1, e2⟩ := hfix
    rw [e1, e2] at hrd ⊢
    unfold after put
    rw [if_neg (by decide), if_neg (by decide), if_pos rfl]
    simp only [show ("fName" = "fHasLinkedGuid") = False from by simp, if_false, if_true]
    rw [hrd]
    rfl
  · rw [after_other _ _ _ _ o1 o2 o3 (fun a b => hfix ⟨a, b⟩), hrd]
    rfl

/-- **C85, nothing is forgotten.** Every attribute that is read is a text, has a default value, or is in the list of those without; the
exceptions are the limits of a channel function. -/
theorem C85_every_attribute (cls attr f : String) (h : ReadFrom cls attr f) :
    (∃ k ∈ kinds, k.name = cls ∧ ∃ j ∈ k.reads, j.attr = attr ∧ j.field = f ∧ j.codec = .text) ∨ (∃ v, Default cls attr v) ∨
      Undetermined cls attr ∨ (cls = "GdtfDmxChannelFunction" ∧ (attr = "Min" ∨ attr = "Max")) := by
  obtain ⟨k, hk, rfl, j, hj, rfl, rfl⟩ := h
  have ht : ∀ k ∈ kinds, ∀ j ∈ k.reads, j.codec = .text ∨ j.attr = "Position" ∨ (∃ p ∈ defaults, p.1 = k.name ∧ ∃ q ∈ p.2, q.1 = j.attr) ∨
      (∃ p ∈ undetermined, p.1 = k.name ∧ j.attr ∈ p.2) ∨ (k.name = "GdtfDmxChannelFunction" ∧ (j.attr = "Min" ∨ j.attr = "Max")) := by
    decide +kernel
  rcases ht k hk j hj with h | h | ⟨p, hp, e, q, hq, e2⟩ | ⟨p, hp, e, hq⟩ | h
  · exact Or.inl ⟨k, hk, rfl, j, hj, rfl, rfl, h⟩
  · exact Or.inr (Or.inl ⟨_, Or.inl ⟨h, rfl⟩⟩)
  · exact Or.inr (Or.inl ⟨q.2, Or.inr ⟨p.2, by rw [← e]; exact hp, by rw [← e2]; exact hq⟩⟩)
  · exact Or.inr (Or.inr (Or.inl ⟨p.2, by rw [← e]; exact hp, hq⟩))
  · exact Or.inr (Or.inr (Or.inr h))

/-! ### Violations -/

theorem default_of {cls attr : String} {v : Val} (h : ∃ p ∈ defaults, p.1 = cls ∧ (attr, v) ∈ p.2) : Default cls attr v := by
  obtain ⟨p, hp, rfl, hv⟩ := h
  exact Or.inr ⟨p.2, hp, hv⟩

theorem undetermined_of {cls attr : String} (h : ∃ p ∈ undetermined, p.1 = cls ∧ attr ∈ p.2) : Undetermined cls attr := by
  obtain ⟨p, hp, rfl, hv⟩ := h
  exact ⟨p.2, hp, hv⟩

theorem readFrom_of {cls attr f : String} (h : ∃ k ∈ kinds, k.name = cls ∧ ∃ j ∈ k.reads, j.attr = attr ∧ j.field = f) : ReadFrom cls attr f := h

/-- **Violation of C85**: a beam without a radius has one of 50, a thousand times the default of 0.05 (metres). -/
theorem C85_beam_radius_violated (F : Fl) (m : Memory) (fresh : String → Obj Members) (n : Nat) (node : Attrs) (h : LeftOut node "BeamRadius") :
    Default "GdtfGeometryLamp" "BeamRadius" (real 5 100) ∧ ReadFrom "GdtfGeometryLamp" "BeamRadius" "fBeamRadius" ∧
      valueOf F m fresh n "GdtfGeometryLamp" node "fBeamRadius" = real 50 ∧ real 50 ≠ real 5 100 := by
  refine ⟨default_of (by decide +kernel), readFrom_of (by decide +kernel), ?_, by decide +kernel⟩
  exact fits_value F m fresh n Node.kGeometryLamp (by decide +kernel) ⟨"BeamRadius", "fBeamRadius", .val "ConvertDouble", .always⟩
    (by decide +kernel) (by decide) (real 50) (by decide +kernel) node h (fun e => absurd e (by decide))

/-- **Violation of C85**: the limits of a channel function that has none are 0 and 1, not its physical values. -/
theorem C85_limits_violated (F : Fl) (m : Memory) (fresh : String → Obj Members) (n : Nat) (node : Attrs) (h1 : LeftOut node "Min")
    (h2 : LeftOut node "Max") :
    valueOf F m fresh n "GdtfDmxChannelFunction" node "fMin" = real 0 ∧ valueOf F m fresh n "GdtfDmxChannelFunction" node "fMax" = real 1 := by
  refine ⟨?_, ?_⟩
  · exact fits_value F m fresh n Node.kDmxChannelFunction (by decide +kernel) ⟨"Min", "fMin", .val "ConvertDouble", .always⟩
      (by decide +kernel) (by decide) (real 0) (by decide +kernel) node h1 (fun e => absurd e (by decide))
  · exact fits_value F m fresh n Node.kDmxChannelFunction (by decide +kernel) ⟨"Max", "fMax", .val "ConvertDouble", .always⟩
      (by decide +kernel) (by decide) (real 1) (by decide +kernel) node h2 (fun e => absurd e (by decide))

theorem table_undetermined : ∀ k ∈ kinds, ∀ j ∈ k.reads, ∀ p ∈ undetermined, p.1 = k.name → j.attr ∈ p.2 →
    j.codec ≠ .text ∧ j.guard = .always ∧ skipped k.name j.field = false ∧ (match unset.find? (fun p => p.1 == (k.name, j.field)) with
      | some p => p.2.lasting && (cvOf j.codec == some p.2.cv)
      | none => false) = true := by
  decide +kernel

/-- A memory full of ones. -/
def ones : Memory := ⟨fun _ _ => one, fun _ _ => 1, .cCenterLineBased, .cTrussFramework, .cRope⟩

/-- **Violation of C85**: an attribute without a default value that is not in the file gives the member whatever was in the memory. -/
theorem C85_memory_violated (F : Fl) (fresh : String → Obj Members) (n : Nat) (cls attr f : String) (hr : ReadFrom cls attr f)
    (hu : Undetermined cls attr) (node : Attrs) (h : LeftOut node attr) :
    (∀ m, valueOf F m fresh n cls node f = ctor m cls f) ∧ ∃ m m', valueOf F m fresh n cls node f ≠ valueOf F m' fresh n cls node f := by
  obtain ⟨k, hk, rfl, j, hj, rfl, rfl⟩ := hr
  obtain ⟨l, hl, ha⟩ := hu
  obtain ⟨h1, h2, h3, h4⟩ := table_undetermined k hk j hj _ hl rfl ha
  have key : ∀ m, valueOf F m fresh n k.name node j.field = ctor m k.name j.field := by
    intro m
    rcases value_gone F m fresh n k hk j hj h1 node h with ⟨_, hs, _⟩ | ⟨_, hv | ⟨hg, _⟩⟩
    · rw [h3] at hs; cases hs
    · rw [hv]
      cases hfd : unset.find? (fun p => p.1 == (k.name, j.field)) with
      | none => rw [hfd] at h4; cases h4
      | some p =>
        rw [hfd] at h4
        simp only [Bool.and_eq_true, beq_iff_eq] at h4
        rw [ctor_raw m _ _ p hfd]
        simp only [conv, h4.2]
        rw [raw_gone F p.2 h4.1]
        cases p.2 <;> rfl
    · exact absurd h2 hg
  refine ⟨key, zeros, ones, ?_⟩
  rw [key, key]
  cases hfd : unset.find? (fun p => p.1 == (k.name, j.field)) with
  | none => rw [hfd] at h4; cases h4
  | some p =>
    rw [hfd] at h4
    simp only [Bool.and_eq_true, beq_iff_eq] at h4
    rw [ctor_raw _ _ _ p hfd, ctor_raw _ _ _ p hfd]
    generalize p.2 = r at h4 ⊢
    cases r <;> first | exact absurd h4.1 Bool.false_ne_true | (simp [Raw.val, zeros, ones, zero, one])

/-! ### The whole description -/

theorem unset_read : ∀ p ∈ unset, ∃ k ∈ kinds, k.name = p.1.1 ∧ (∃ j ∈ k.reads, j.field = p.1.2 ∧ (p.2.lasting = true →
      ∃ q ∈ undetermined, q.1 = k.name ∧ j.attr ∈ q.2)) ∧ (∀ j ∈ k.reads, j.guard = .always) ∧ k.name ≠ "GdtfAttribute" ∧
      k.name ≠ "GdtfDmxChannelSet" ∧ k.name ≠ "GdtfFixture" ∧ ∀ s ∈ skips, s.1 ≠ k.name := by
  decide +kernel

/-- The class has no member without a value. -/
theorem ctor_const (m m' : Memory) (cls : String) (h : ∀ p ∈ unset, p.1.1 ≠ cls) : ctor m cls = ctor m' cls := by
  funext f
  have : unset.find? (fun p => p.1 == (cls, f)) = none := by
    rw [List.find?_eq_none]
    intro p hp e
    rw [beq_iff_eq] at e
    exact h p hp (by rw [e])
  rw [ctor_made m _ _ this, ctor_made m' _ _ this]

/-- One object, read twice. -/
theorem dec_same (F : Fl) (fresh : String → Obj Members) (m m' : Memory) (cls : String) (node : Attrs) (f : String) :
    (valueSchema F (ctor m) fresh).dec cls node f = (valueSchema F (ctor m') fresh).dec cls node f ∨
      ∃ attr, Undetermined cls attr ∧ ReadFrom cls attr f ∧ LeftOut node attr := by
  by_cases hu : ∀ p ∈ unset, p.1.1 ≠ cls
  · left
    simp only [valueSchema, ctor_const m m' cls hu]
  simp only [not_forall, not_not] at hu
  obtain ⟨p, hp, rfl⟩ := hu
  obtain ⟨k, hk, hname, -, hgs, n1, n2, n3, n4⟩ := unset_read p hp
  rw [← hname]
  rw [schema_dec F (ctor m) fresh k hk, schema_dec F (ctor m') fresh k hk]
  have hafter : ∀ o : Members, after k.name node o = o := by
    intro o
    unfold after
    rw [if_neg n1, if_neg n2, if_neg n3]
  rw [hafter, hafter, unread_other _ _ _ _ _ (fun s hs e => absurd e (n4 s hs)), unread_other _ _ _ _ _ (fun s hs e => absurd e (n4 s hs))]
  by_cases hr : ∃ j ∈ k.reads, j.field = f
  · obtain ⟨j, hj, rfl⟩ := hr
    rw [readNow_mem F k hk node _ j hj (hgs j hj), readNow_mem F k hk node _ j hj (hgs j hj)]
    by_cases hl : (∃ p, unset.find? (fun p => p.1 == (k.name, j.field)) = some p ∧ p.2.lasting = true) ∧ LeftOut node j.attr
    · right
      obtain ⟨⟨q, hq, hlast⟩, hleft⟩ := hl
      have hqe : q.1 = (k.name, j.field) := by simpa using List.find?_some hq
      obtain ⟨k', hk', hn', ⟨j', hj', hf', hl'⟩, -⟩ := unset_read q (List.mem_of_find?_eq_some hq)
      have hkk : k' = k := by
        have h1 := table_find k hk
        have h2 := table_find k' hk'
        rw [hn', hqe] at h2
        rw [h1] at h2
        exact (Option.some.inj h2).symm
      subst hkk
      have hjj : j' = j := by
        have ht := Node.table_read k' hk
        unfold Node.readOk at ht
        rw [Bool.and_eq_true, decide_eq_true_iff] at ht
        by_contra hne
        have hs : ∀ a ∈ k'.reads, ∀ b ∈ k'.reads, a ≠ b → a.field ≠ b.field := by
          intro a ha b hb hab
          obtain ⟨pre, post, hpp⟩ := List.append_of_mem ha
          have h1 := ht.1
          rw [hpp] at h1 hb
          obtain ⟨-, h3, h4⟩ := List.pairwise_append.1 h1
          rcases List.mem_append.1 hb with hb | hb
          · exact (h4 b hb a (List.mem_cons_self ..)).symm
          · rcases List.mem_cons.1 hb with rfl | hb
            · exact absurd rfl hab
            · exact (List.pairwise_cons.1 h3).1 b hb
        exact hs j' hj' j hj hne (by rw [hf', hqe])
      subst hjj
      exact ⟨j'.attr, undetermined_of (hl' hlast), ⟨k', hk, rfl, j', hj', rfl, rfl⟩, hleft⟩
    · left
      apply gone_same F m m' k hk j hj
      intro q hq hlast
      have : ¬ LeftOut node j.attr := fun e => hl ⟨⟨q, hq, hlast⟩, e⟩
      unfold LeftOut at this
      cases hg : getAttr node j.attr with
      | none => exact absurd (Or.inl hg) this
      | some u => exact ⟨u, rfl, fun e => this (Or.inr (by rw [hg, e]))⟩
  · left
    have hno : ∀ i ∈ k.reads, i.field ≠ f := fun i hi e => hr ⟨i, hi, e⟩
    rw [readNow_other F node f _ _ hno, readNow_other F node f _ _ hno]
    have : unset.find? (fun p => p.1 == (k.name, f)) = none := by
      rw [List.find?_eq_none]
      intro q hq e
      have hqe : q.1 = (k.name, f) := by simpa using e
      obtain ⟨k', hk', hn', ⟨j', hj', hf', -⟩, -⟩ := unset_read q hq
      have hkk : k' = k := by
        have h1 := table_find k hk
        have h2 := table_find k' hk'
        rw [hn', hqe] at h2
        rw [h1] at h2
        exact (Option.some.inj h2).symm
      subst hkk
      exact hno j' hj' (by rw [hf', hqe])
    rw [ctor_made m _ _ this, ctor_made m' _ _ this]

open Classical in
mutual
/-- The tree without some of the members. -/
noncomputable def veil (P : String → String → Prop) : Obj Members → Obj Members
  | .mk cls d ks => .mk cls (fun f => if P cls f then .undef else d f) (veilAll P ks)

/-- All members with objects. -/
noncomputable def veilAll (P : String → String → Prop) : List (List (Obj Members)) → List (List (Obj Members))
  | [] => []
  | k :: ks => veilList P k :: veilAll P ks

/-- One of them. -/
noncomputable def veilList (P : String → String → Prop) : List (Obj Members) → List (Obj Members)
  | [] => []
  | o :: os => veil P o :: veilList P os
end

theorem veilList_eq (P : String → String → Prop) : ∀ l, veilList P l = l.map (veil P)
  | [] => rfl
  | o :: os => by rw [veilList, veilList_eq P os, List.map_cons]

theorem veilAll_eq (P : String → String → Prop) : ∀ l, veilAll P l = l.map (fun k => k.map (veil P))
  | [] => rfl
  | k :: ks => by rw [veilAll, veilAll_eq P ks, veilList_eq, List.map_cons]

theorem at_veil (P : String → String → Prop) : ∀ (p : List (Nat × Nat)) (o : Obj Members), Obj.at (veil P o) p = (Obj.at o p).map (veil P) := by
  intro p
  induction p with
  | nil => intro o; simp [Obj.at]
  | cons ij p ih =>
    intro o
    obtain ⟨i, j⟩ := ij
    cases o with
    | mk cls d ks =>
      rw [veil, veilAll_eq]
      simp only [Obj.at, List.getElem?_map]
      cases ks[i]? with
      | none => rfl
      | some k =>
        simp only [Option.map_some, Option.bind_some, List.getElem?_map]
        cases k[j]? with
        | none => rfl
        | some x => simp only [Option.map_some, Option.bind_some]; exact ih x

/-- A member in which two readings of the document can differ. -/
def Open (e : Elem) (cls f : String) : Prop := ∃ x attr, Inside x e ∧ Undetermined cls attr ∧ ReadFrom cls attr f ∧ LeftOut x.attrs attr

theorem inside_kid {e c x : Elem} (h : Inside e x) (hc : c ∈ e.kids) : Inside c x := by
  induction h with
  | self e => exact .kid _ c c hc (.self c)
  | kid e' c' x' h' hx ih => exact .kid e' c' c h' (ih hc)

theorem place_inside (s : Slot) (e x : Elem) (h : Inside e x) : ∀ c ∈ s.place e, Inside c x := by
  intro c hc
  unfold Slot.place at hc
  split at hc
  · exact inside_kid h hc
  · rename_i b _
    cases hb : e.child b with
    | none => rw [hb] at hc; cases hc
    | some y =>
      rw [hb] at hc
      exact inside_kid (inside_kid h (List.mem_of_find?_eq_some hb)) hc

/-- Two ways to read the objects of a member. -/
theorem slot_same (P : String → String → Prop) (s : Slot) (fresh : String → Obj Members) (rd rd' : String → Elem → Obj Members) (e : Elem)
    (h : ∀ c ∈ s.place e, ∀ cls, veil P (rd cls c) = veil P (rd' cls c)) :
    (s.read fresh rd e).map (veil P) = (s.read fresh rd' e).map (veil P) := by
  have hf : ((s.place e).filterMap (fun c => (s.created c).map (fun cls => rd cls c))).map (veil P) =
      ((s.place e).filterMap (fun c => (s.created c).map (fun cls => rd' cls c))).map (veil P) := by
    generalize s.place e = l at h
    induction l with
    | nil => rfl
    | cons c l ih =>
      have ih := ih (fun c hc => h c (List.mem_cons_of_mem _ hc))
      cases hc : s.created c with
      | none => simpa [hc] using ih
      | some cls =>
        simp only [List.filterMap_cons, hc, Option.map_some, List.map_cons]
        rw [ih, h c (List.mem_cons_self ..)]
  unfold Slot.read
  simp only
  split
  · exact hf
  · rw [List.map_take, List.map_take, hf]
  · generalize (s.place e).filterMap (fun c => (s.created c).map (fun cls => rd cls c)) = l at hf
    generalize (s.place e).filterMap (fun c => (s.created c).map (fun cls => rd' cls c)) = l' at hf
    cases l with
    | nil => cases l' with
      | nil => rfl
      | cons a t => cases hf
    | cons b t => cases l' with
      | nil => cases hf
      | cons a t' =>
        simp only [List.map_cons, List.cons.injEq] at hf
        simp only [List.map_cons, List.map_nil, hf.1]

theorem read_same (F : Fl) (fresh : String → Obj Members) (m m' : Memory) (x : Elem) : ∀ (n : Nat) (cls : String) (e : Elem), Inside e x →
    veil (Open x) (readTo (valueSchema F (ctor m) fresh) n cls e) = veil (Open x) (readTo (valueSchema F (ctor m') fresh) n cls e) := by
  intro n
  induction n with
  | zero => intro cls e _; rfl
  | succ n ih =>
    intro cls e he
    simp only [readTo, veil, veilAll_eq, List.map_map]
    congr 1
    · funext f
      split
      · rfl
      · rename_i ho
        rcases dec_same F fresh m m' cls e.attrs f with h | ⟨attr, h1, h2, h3⟩
        · exact h
        · exact absurd ⟨e, attr, he, h1, h2, h3⟩ ho
    · show List.map _ ((valueSchema F (ctor m) fresh).slots cls) = List.map _ ((valueSchema F (ctor m) fresh).slots cls)
      apply List.map_congr_left
      intro s _
      exact slot_same (Open x) s fresh _ _ e (fun c hc cl => ih cl c (place_inside s e x he c hc))

theorem walkList_eq (g : Nat → Members → Members) (n : Nat) : ∀ l, walkList g n l = l.map (walk g n)
  | [] => rfl
  | o :: os => by rw [walkList, walkList_eq g n os, List.map_cons]

theorem walkAll_eq (g : Nat → Members → Members) (n : Nat) : ∀ l, walkAll g n l = l.map (fun k => k.map (walk g n))
  | [] => rfl
  | k :: ks => by rw [walkAll, walkAll_eq g n ks, walkList_eq, List.map_cons]

theorem closed_offset (x : Elem) : ¬ Open x "GdtfDmxChannel" "fCoarse+fFine+fUltra+fUber" := by
  rintro ⟨_, attr, _, ⟨l, hl, _⟩, _⟩
  have : ∀ p ∈ undetermined, p.1 ≠ "GdtfDmxChannel" := by decide
  exact this _ hl rfl

open Classical in
/-- The tree behind the conversion of the channel values can be told from the tree before. -/
theorem veil_walk (P : String → String → Prop) (hP : ¬ P "GdtfDmxChannel" "fCoarse+fFine+fUltra+fUber") (g : Nat → Val → Val)
    (o : Obj Members) : ∀ (n : Nat) (o' : Obj Members), veil P o = veil P o' →
    veil P (walk (fun n d f => g n (d f)) n o) = veil P (walk (fun n d f => g n (d f)) n o') := by
  apply Obj.rec (motive_1 := fun o => ∀ (n : Nat) (o' : Obj Members), veil P o = veil P o' →
      veil P (walk (fun n d f => g n (d f)) n o) = veil P (walk (fun n d f => g n (d f)) n o'))
    (motive_2 := fun ks => ∀ (n : Nat) (ks' : List (List (Obj Members))), veilAll P ks = veilAll P ks' →
      veilAll P (walkAll (fun n d f => g n (d f)) n ks) = veilAll P (walkAll (fun n d f => g n (d f)) n ks'))
    (motive_3 := fun k => ∀ (n : Nat) (k' : List (Obj Members)), veilList P k = veilList P k' →
      veilList P (walkList (fun n d f => g n (d f)) n k) = veilList P (walkList (fun n d f => g n (d f)) n k'))
  · intro cls d ks ih n o' h
    cases o' with
    | mk cls' d' ks' =>
      simp only [veil, Obj.mk.injEq] at h
      obtain ⟨rfl, hd, hk⟩ := h
      have hr : reso n cls d = reso n cls d' := by
        unfold reso
        split
        · rename_i e
          have := congrFun hd "fCoarse+fFine+fUltra+fUber"
          rw [e, if_neg hP, if_neg hP] at this
          rw [this]
        · rfl
      simp only [walk, veil, hr]
      congr 1
      · funext f
        have := congrFun hd f
        split
        · rfl
        · rename_i hf
          rw [if_neg hf, if_neg hf] at this
          rw [this]
      · exact ih _ ks' hk
  · intro n ks' h
    cases ks' with
    | nil => rfl
    | cons a t => simp [veilAll] at h
  · intro k ks ih1 ih2 n ks' h
    cases ks' with
    | nil => simp [veilAll] at h
    | cons a t =>
      simp only [veilAll, List.cons.injEq] at h
      simp only [walkAll, veilAll, ih1 n a h.1, ih2 n t h.2]
  · intro n k' h
    cases k' with
    | nil => rfl
    | cons a t => simp [veilList] at h
  · intro o os ih1 ih2 n k' h
    cases k' with
    | nil => simp [veilList] at h
    | cons a t =>
      simp only [veilList, List.cons.injEq] at h
      simp only [walkList, veilList, ih1 n a h.1, ih2 n t h.2]

/-- **C85, the same file gives the same values.** A document is read twice, with whatever in the memory: there are the same objects of the
same classes, and a member has the same value, unless its attribute has no default value and some node of the document leaves it out. -/
theorem C85_document_partial (F : Fl) (fresh : String → Obj Members) (m m' : Memory) (cls : String) (e : Elem) (p : List (Nat × Nat)) :
    classAt (readValues F (ctor m) fresh cls e) p = classAt (readValues F (ctor m') fresh cls e) p ∧
    ∀ c d d', classAt (readValues F (ctor m) fresh cls e) p = some c → dataAt (readValues F (ctor m) fresh cls e) p = some d →
      dataAt (readValues F (ctor m') fresh cls e) p = some d' → ∀ f, d f = d' f ∨
        ∃ x attr, Inside x e ∧ Undetermined c attr ∧ ReadFrom c attr f ∧ LeftOut x.attrs attr := by
  have hv : veil (Open e) (readValues F (ctor m) fresh cls e) = veil (Open e) (readValues F (ctor m') fresh cls e) :=
    veil_walk (Open e) (closed_offset e) (dmxValue F) _ 2 _ (read_same F fresh m m' e e.depth cls e (.self e))
  have hat := congrArg (fun o => Obj.at o p) hv
  simp only [at_veil] at hat
  unfold classAt dataAt
  cases h1 : Obj.at (readValues F (ctor m) fresh cls e) p with
  | none =>
    cases h2 : Obj.at (readValues F (ctor m') fresh cls e) p with
    | none => exact ⟨rfl, fun c d d' h => by cases h⟩
    | some b => rw [h1, h2] at hat; cases hat
  | some a =>
    cases h2 : Obj.at (readValues F (ctor m') fresh cls e) p with
    | none => rw [h1, h2] at hat; cases hat
    | some b =>
      rw [h1, h2] at hat
      cases a with
      | mk ca da ka =>
        cases b with
        | mk cb db kb =>
          simp only [Option.map_some, veil, Option.some.injEq, Obj.mk.injEq] at hat
          obtain ⟨rfl, hd, -⟩ := hat
          refine ⟨rfl, ?_⟩
          intro c d d' e1 e2 e3 f
          simp only [Option.map_some, Obj.cls, Option.some.injEq] at e1 e2 e3
          subst e1 e2 e3
          have := congrFun hd f
          by_cases ho : Open e ca f
          · exact Or.inr ho
          · rw [if_neg ho, if_neg ho] at this
            exact Or.inl this

theorem inside_trans {a b c : Elem} (h1 : Inside a b) (h2 : Inside b c) : Inside a c := by
  induction h2 with
  | self e => exact h1
  | kid e c' x h' hx ih => exact .kid e c' a h' (ih h1)

theorem depths_mem {c : Elem} : ∀ {l : List Elem}, c ∈ l → c.depth ≤ depths l
  | d :: l, h => by
    rw [depths]
    rcases List.mem_cons.1 h with rfl | h
    · exact Nat.le_max_left ..
    · exact Nat.le_trans (depths_mem h) (Nat.le_max_right ..)

theorem kid_depth {c e : Elem} (h : c ∈ e.kids) : c.depth < e.depth := by
  cases e with
  | mk n a k =>
    rw [Elem.depth]
    have := depths_mem h
    simp only [Elem.kids] at this
    omega

theorem place_depth (s : Slot) (e : Elem) : ∀ c ∈ s.place e, c.depth < e.depth := by
  intro c hc
  unfold Slot.place at hc
  split at hc
  · exact kid_depth hc
  · rename_i b _
    cases hb : e.child b with
    | none => rw [hb] at hc; cases hc
    | some y =>
      rw [hb] at hc
      exact Nat.lt_trans (kid_depth hc) (kid_depth (List.mem_of_find?_eq_some hb))

theorem read_mem (s : Slot) (fresh : String → Obj Members) (rd : String → Elem → Obj Members) (e : Elem) (o : Obj Members)
    (h : o ∈ s.read fresh rd e) : (∃ c ∈ s.place e, ∃ cls, o = rd cls c) ∨ ∃ cls, o = fresh cls := by
  have hf : ∀ o ∈ (s.place e).filterMap (fun c => (s.created c).map (fun cls => rd cls c)), ∃ c ∈ s.place e, ∃ cls, o = rd cls c := by
    intro o ho
    obtain ⟨c, hc, hm⟩ := List.mem_filterMap.1 ho
    cases hk : s.created c with
    | none => rw [hk] at hm; cases hm
    | some cls =>
      rw [hk] at hm
      exact ⟨c, hc, cls, (Option.some.inj hm).symm⟩
  unfold Slot.read at h
  simp only at h
  split at h
  · exact Or.inl (hf o h)
  · exact Or.inl (hf o (List.mem_of_mem_take h))
  · split at h
    · rename_i a t heq
      rw [List.mem_singleton] at h
      subst h
      exact Or.inl (hf o (by rw [heq]; exact List.mem_cons_self ..))
    · obtain ⟨c, -, hc⟩ := List.mem_map.1 h
      exact Or.inr ⟨c, hc.symm⟩

theorem object_from (S : Schema Members) : ∀ (n : Nat) (cls : String) (e : Elem), e.depth ≤ n → ∀ (p : List (Nat × Nat)) (c : String) (d : Members)
    (ks : List (List (Obj Members))), Obj.at (readTo S n cls e) p = some (.mk c d ks) →
    (∃ y, Inside y e ∧ d = S.dec c y.attrs) ∨ ∃ cl q, Obj.at (S.fresh cl) q = some (.mk c d ks) := by
  intro n
  induction n with
  | zero =>
    intro cls e he
    cases e with
    | mk a b k => rw [Elem.depth] at he; omega
  | succ n ih =>
    intro cls e he p c d ks h
    cases p with
    | nil =>
      simp only [readTo, Obj.at, Option.some.injEq, Obj.mk.injEq] at h
      obtain ⟨rfl, rfl, -⟩ := h
      exact Or.inl ⟨e, .self e, rfl⟩
    | cons ij p =>
      obtain ⟨i, j⟩ := ij
      simp only [readTo, Obj.at, List.getElem?_map] at h
      cases hs : (S.slots cls)[i]? with
      | none => rw [hs] at h; cases h
      | some s =>
        rw [hs, Option.map_some, Option.bind_some] at h
        cases ho : (s.read S.fresh (readTo S n) e)[j]? with
        | none => rw [ho] at h; cases h
        | some o =>
          rw [ho, Option.bind_some] at h
          rcases read_mem s _ _ e o (List.mem_of_getElem? ho) with ⟨x, hx, cl, rfl⟩ | ⟨cl, rfl⟩
          · rcases ih cl x (by have := place_depth s e x hx; omega) p c d ks h with ⟨y, hy, hd⟩ | h'
            · exact Or.inl ⟨y, inside_trans hy (place_inside s e e (.self e) x hx), hd⟩
            · exact Or.inr h'
          · exact Or.inr ⟨cl, p, h⟩

theorem at_walk (g : Nat → Members → Members) : ∀ (p : List (Nat × Nat)) (n : Nat) (o : Obj Members),
    ∃ n', Obj.at (walk g n o) p = (Obj.at o p).map (walk g n') := by
  intro p
  induction p with
  | nil => intro n o; exact ⟨n, by simp [Obj.at]⟩
  | cons ij p ih =>
    intro n o
    obtain ⟨i, j⟩ := ij
    cases o with
    | mk cls d ks =>
      rw [walk, walkAll_eq]
      simp only [Obj.at, List.getElem?_map]
      cases ks[i]? with
      | none => exact ⟨0, rfl⟩
      | some k =>
        simp only [Option.map_some, Option.bind_some, List.getElem?_map]
        cases k[j]? with
        | none => exact ⟨0, rfl⟩
        | some x => simp only [Option.map_some, Option.bind_some]; exact ih _ x

/-- **C85, every object of a description.** The values of every object are those of a node of the document as `valueOf` has them (so
`C85_default_partial` and `C85_text` speak of them), or the object is a part that is always there and for which there is no node. -/
theorem C85_objects (F : Fl) (fresh : String → Obj Members) (m : Memory) (cls : String) (e : Elem) (p : List (Nat × Nat)) (c : String)
    (d : Members) (hc : classAt (readValues F (ctor m) fresh cls e) p = some c) (hd : dataAt (readValues F (ctor m) fresh cls e) p = some d) :
    (∃ y n, Inside y e ∧ ∀ f, d f = valueOf F m fresh n c y.attrs f) ∨
      ∃ cl q d0 n, classAt (fresh cl) q = some c ∧ dataAt (fresh cl) q = some d0 ∧ ∀ f, d f = dmxValue F n (d0 f) := by
  unfold readValues at hc hd
  unfold classAt at hc
  unfold dataAt at hd
  obtain ⟨n, hn⟩ := at_walk (fun n d f => dmxValue F n (d f)) p 2 (read (valueSchema F (ctor m) fresh) cls e)
  rw [hn] at hc hd
  cases ho : Obj.at (read (valueSchema F (ctor m) fresh) cls e) p with
  | none => rw [ho] at hc; cases hc
  | some o =>
    rw [ho] at hc hd
    cases o with
    | mk c' d0 ks =>
      simp only [Option.map_some, walk, Obj.cls, Option.some.injEq] at hc hd
      subst hc hd
      rcases object_from _ _ cls e (Nat.le_refl _) p c' d0 ks ho with ⟨y, hy, rfl⟩ | ⟨cl, q, hq⟩
      · exact Or.inl ⟨y, _, hy, fun f => rfl⟩
      · have hq : Obj.at (fresh cl) q = some (.mk c' d0 ks) := hq
        refine Or.inr ⟨cl, q, d0, _, ?_, ?_, fun f => rfl⟩
        · rw [classAt, hq]; rfl
        · rw [dataAt, hq]; rfl

/-! ### The constructors meet the hypothesis of C80 and C81 -/

theorem table_suits : ∀ k ∈ kinds, ∀ i ∈ k.writes, i.codec ≠ .ref → i.codec ≠ .blank → (Node.Spec.deferred.any (fun t => t.1 == k.name && t.2.2 == i.field)) = false →
    (match cvOf i.codec with
      | some cv => suits cv (ctor zeros k.name i.field)
      | none => true) = true := by
  decide +kernel

theorem ctor_suits (m : Memory) (cv : Cv) (cls f : String) : suits cv (ctor m cls f) = suits cv (ctor zeros cls f) := by
  cases hu : unset.find? (fun p => p.1 == (cls, f)) with
  | none => rw [ctor_made m _ _ hu, ctor_made zeros _ _ hu]
  | some p =>
    rw [ctor_raw m _ _ p hu, ctor_raw zeros _ _ p hu]
    cases p.2 <;> rfl

/-- **C85 and C80**: the constructors of the library leave values of the right types in the members, so that the hypothesis of C80 and C81
about them is met. -/
theorem C85_suitable (m : Memory) : Suitable (ctor m) := by
  intro cls i cv ⟨k, hk, hn, hi, h1, h2, h3⟩ hcv
  subst hn
  rw [ctor_suits]
  have := table_suits k hk i hi h1 h2 (by
    rw [List.any_eq_false]
    intro t ht e
    simp only [Bool.and_eq_true, beq_iff_eq] at e
    obtain ⟨a, b, c⟩ := t
    simp only at e
    exact h3 b (by rw [← e.1, ← e.2]; exact ht))
  rw [hcv] at this
  exact this

/-! ### The hypotheses are met -/

/-- A node of a model without the length, and with an empty width. -/
def bareModel : Attrs := [("Name", "Body".toList.map (fun c => BitVec.ofNat 16 c.toNat)), ("Width", [])]

example : ReadFrom "GdtfModel" "Length" "fLength" ∧ Default "GdtfModel" "Length" (real 0) ∧ LeftOut bareModel "Length" ∧
    LeftOut bareModel "Width" ∧ ¬ LeftOut bareModel "Name" :=
  ⟨readFrom_of (by decide +kernel), default_of (by decide +kernel), Or.inl rfl, Or.inr (by decide +kernel), by unfold LeftOut; decide +kernel⟩

/-- A geometry without a position stays at the origin. -/
example (F : Fl) (m : Memory) (fresh : String → Obj Members) : valueOf F m fresh 2 "GdtfGeometry" [] "fMatrix" = .matrix unitMatrix :=
  C85_default_partial F m fresh 2 "GdtfGeometry" "Position" "fMatrix" _ (readFrom_of (by decide +kernel)) (Or.inl ⟨rfl, rfl⟩)
    (fun h => absurd h.1 (by decide)) [] (Or.inl rfl) (fun e => absurd e (by decide))

/-- The highest temperature of a fixture is 40 if there is no other in the file. -/
example (F : Fl) (m : Memory) (fresh : String → Obj Members) :
    valueOf F m fresh 2 "OperatingTemperature" [("Low", [BitVec.ofNat 16 53])] "fOperatingTemperatureHigh" = real 40 :=
  C85_default_partial F m fresh 2 "OperatingTemperature" "High" "fOperatingTemperatureHigh" _ (readFrom_of (by decide +kernel))
    (default_of (by decide +kernel)) (fun h => absurd h.1 (by decide)) _ (Or.inl rfl) (fun e => absurd e (by decide))

/-- A macro step without a duration. -/
example : ReadFrom "GdtfMacroDMXStep" "Duration" "fDuration" ∧ Undetermined "GdtfMacroDMXStep" "Duration" ∧ LeftOut [] "Duration" :=
  ⟨readFrom_of (by decide +kernel), undetermined_of (by decide +kernel), Or.inl rfl⟩

/-- A text. -/
example : ∃ k ∈ kinds, ∃ j ∈ k.reads, j.codec = .text ∧ j.attr = "Pretty" ∧ LeftOut [] j.attr :=
  ⟨Node.kAttribute, by decide +kernel, ⟨"Pretty", "fPrettyName", .text, .always⟩, by decide +kernel, rfl, rfl, Or.inl rfl⟩

/-- A fixture with a display of which the document gives the width, but not the height. -/
def oneDisplay : Elem :=
  .mk "FixtureType" [] [.mk "Geometries" [] [.mk "Display" [("Width", [BitVec.ofNat 16 53])] []]]

example (F : Fl) (m : Memory) (fresh : String → Obj Members) :
    classAt (readValues F (ctor m) fresh "GdtfFixture" oneDisplay) [(4, 0)] = some "GdtfGeometryDisplay" := by
  rfl

end Verif.Gdtf
