import Verif.Api.FieldsSpec

/-!
# C61, C62: setting and getting the fields of an object through the interface
-/

namespace Verif.Api

/-! ### Lemmas -/

/-- The last assignment to a member. -/
def lastWrite (ws : List (String × Src)) (m : String) : Option Src :=
  ws.foldl (fun r w => if w.1 = m then some w.2 else r) none

theorem mem_foldl (ws : List (String × Src)) (args : String → Val) (o : Inst) (m : String) :
    (ws.foldl (fun o w => o.put w.1 (w.2.val args)) o).mem m =
      ((ws.foldl (fun r w => if w.1 = m then some w.2 else r) none).map (·.val args)).getD (o.mem m) := by
  suffices H : ∀ (ws : List (String × Src)) (o : Inst) (v : Val) (r : Option Src),
      (o.mem m = (r.map (·.val args)).getD v) →
      (ws.foldl (fun o w => o.put w.1 (w.2.val args)) o).mem m =
        ((ws.foldl (fun r w => if w.1 = m then some w.2 else r) r).map (·.val args)).getD v by
    exact H ws o (o.mem m) none rfl
  intro ws
  induction ws with
  | nil => intro o v r h; simpa using h
  | cons w ws ih =>
    intro o v r h
    simp only [List.foldl_cons]
    apply ih
    unfold Inst.put
    by_cases hw : w.1 = m
    · simp [hw]
    · simp [hw, h, Ne.symm hw]

theorem frame_foldl (ws : List (String × Src)) (args : String → Val) (o : Inst) :
    (ws.foldl (fun o w => o.put w.1 (w.2.val args)) o).isSet = o.isSet ∧
    (ws.foldl (fun o w => o.put w.1 (w.2.val args)) o).kind = o.kind := by
  induction ws generalizing o with
  | nil => exact ⟨rfl, rfl⟩
  | cons w ws ih => exact ih (o.put w.1 (w.2.val args))

theorem set_mem {f : Field} {o o' : Inst} {args : String → Val} (h : f.set o args = some o') (m : String) :
    o'.mem m = ((lastWrite f.writes m).map (·.val args)).getD (o.mem m) := by
  unfold Field.set at h
  split at h
  · cases h; exact mem_foldl _ _ _ _
  · cases h

theorem set_admits {f : Field} {o o' : Inst} {args : String → Val} (h : f.set o args = some o') (g : Field) :
    g.admits o' = g.admits o := by
  unfold Field.set at h
  split at h
  · cases h
    have := frame_foldl f.writes args o
    unfold Field.admits
    rw [this.1, this.2]
  · cases h

theorem set_self {f : Field} {o o' : Inst} {args : String → Val} (h : f.set o args = some o') :
    f.admits o' = true := by
  rw [set_admits h]
  unfold Field.set at h
  split at h
  · assumption
  · cases h

/-- The row stores every result from the argument of the same name through `c`. -/
def Field.through (f : Field) (c : Conv) : Bool :=
  f.reads.all (fun p => lastWrite f.writes p.2 = some (.arg p.1 c)) &&
  f.flag.all (fun m => lastWrite f.writes m = some (.const (.flag true))) &&
  !f.writes.any (fun w => w.1 = "GdtfColorSpace.fColorSpace" && !f.over.isEmpty)

theorem get_through {f : Field} {c : Conv} (hc : f.through c = true) {o o' : Inst} {args : String → Val}
    (h : f.set o args = some o')
    (hov : f.over.find? (fun p => decide (o'.mem "GdtfColorSpace.fColorSpace" = .enum p.1)) = none)
    (hun : ∀ p ∈ f.reads, f.unset ≠ some (c.apply (args p.1))) :
    f.get o' = .values (f.reads.map fun p => (p.1, c.apply (args p.1))) := by
  unfold Field.through at hc
  simp only [Bool.and_eq_true, List.all_eq_true, decide_eq_true_eq] at hc
  obtain ⟨⟨h1, h2⟩, -⟩ := hc
  have hm : ∀ p ∈ f.reads, o'.mem p.2 = c.apply (args p.1) := by
    intro p hp
    rw [set_mem h, h1 p hp]
    rfl
  unfold Field.get
  rw [set_self h]
  have hf : f.flag.any (fun m => decide (o'.mem m ≠ .flag true)) = false := by
    cases hfl : f.flag with
    | none => rfl
    | some m =>
      rw [hfl] at h2
      simp at h2
      simp [set_mem h, h2, Src.val]
  simp only [Bool.not_true, Bool.false_eq_true, if_false, hf]
  have hm : ∀ p ∈ f.reads, f.value o' p.2 = c.apply (args p.1) := by
    intro p hp
    unfold Field.value
    rw [hov]
    exact hm p hp
  have ha : f.reads.any (fun p => decide (f.unset = some (f.value o' p.2))) = false := by
    rw [List.any_eq_false]
    intro p hp
    rw [hm p hp]
    simpa using hun p hp
  rw [ha]
  simp only [Bool.false_eq_true, if_false]
  congr 1
  apply List.map_congr_left
  intro p hp
  rw [hm p hp]

theorem all_fields (P : Field → Bool) (h : fields.all P = true) : ∀ f ∈ fields, P f = true :=
  List.all_eq_true.1 h

/-! ### C61 -/

/-- **C61**, 245 of 263 fields: after a setter succeeded, the getter returns what was set.  Missing: the fields
that the theorems below are about. -/
theorem C61_partial : ∀ f ∈ fields,
    f.id ∉ cleanedNames ++ offsets ++ primaries ++ broken ++ numbers →
    ∀ o args o', Sets f o args o' → Returns f o' args := by
  intro f hf hne o args o' h
  have hall := all_fields (fun f => decide (f.id ∈ cleanedNames ++ offsets ++ primaries ++ broken ++ numbers) ||
      (f.through .same && f.over.isEmpty && f.unset.isNone)) (by decide +kernel) f hf
  simp only [hne, decide_false, Bool.false_or, Bool.and_eq_true, List.isEmpty_iff,
    Option.isNone_iff_eq_none] at hall
  obtain ⟨⟨h1, h2⟩, h3⟩ := hall
  unfold Returns
  rw [get_through h1 h (by rw [h2]; rfl) (by rw [h3]; simp)]
  rfl

/-- The setter and the getter accept the same objects: a set pointer, the right kind of object. -/
theorem C61_accepts : ∀ f ∈ fields, ∀ o args, (∃ o', Sets f o args o') ↔ f.get o ≠ .refused := by
  intro f hf o args
  unfold Sets Field.set Field.get
  cases h : f.admits o
  · simp
  · simp only [if_true, Bool.not_true, Bool.false_eq_true, if_false]
    constructor
    · intro _
      split
      · simp
      · split <;> simp
    · intro _; exact ⟨_, rfl⟩

/-- A getter refuses every object whose pointer is not set, and nothing can be set there. -/
theorem C61_unset : ∀ f ∈ fields, ∀ o args, o.isSet = false → f.get o = .refused ∧ ¬ ∃ o', Sets f o args o' := by
  intro f hf o args h
  have : f.admits o = false := by unfold Field.admits; simp [h]
  simp [Sets, Field.get, Field.set, this]

/-- Names that are cleaned: the getter returns the characters of the name that are allowed. -/
theorem C61_names : ∀ f ∈ fields, f.id ∈ cleanedNames →
    ∀ o args o' s, args "value" = .text s → Sets f o args o' →
      f.get o' = .values [("value", .text (s.filter fun c => decide (Name.Allowed c)))] := by
  intro f hf hid o args o' s hs h
  have hall := all_fields (fun f => !decide (f.id ∈ cleanedNames) ||
      (f.through .clean && f.over.isEmpty && f.unset.isNone && decide (f.reads.map (·.1) = ["value"])))
      (by decide +kernel) f hf
  simp only [hid, decide_true, Bool.not_true, Bool.false_or, Bool.and_eq_true, List.isEmpty_iff,
    Option.isNone_iff_eq_none, decide_eq_true_eq] at hall
  obtain ⟨⟨⟨h1, h2⟩, h3⟩, h4⟩ := hall
  rw [get_through h1 h (by rw [h2]; rfl) (by rw [h3]; simp)]
  have : f.reads.map (fun p => (p.1, Conv.clean.apply (args p.1))) =
      (f.reads.map (·.1)).map (fun n => (n, Conv.clean.apply (args n))) := by simp
  rw [this, h4]
  simp [Conv.apply, hs, Name.C24_clean]

/-- DMX offsets: the getter returns the offset modulo 65536, so what was set exactly from 0 to 65535. -/
theorem C61_offsets : ∀ f ∈ fields, f.id ∈ offsets →
    ∀ o args o' i, args "value" = .int i → Sets f o args o' →
      f.get o' = .values [("value", .int (i % 65536))] ∧
      (Returns f o' args ↔ 0 ≤ i ∧ i ≤ 65535) := by
  intro f hf hid o args o' i hs h
  have hall := all_fields (fun f => !decide (f.id ∈ offsets) ||
      (f.through .addr && f.over.isEmpty && f.unset.isNone && decide (f.reads.map (·.1) = ["value"])))
      (by decide +kernel) f hf
  simp only [hid, decide_true, Bool.not_true, Bool.false_or, Bool.and_eq_true, List.isEmpty_iff,
    Option.isNone_iff_eq_none, decide_eq_true_eq] at hall
  obtain ⟨⟨⟨h1, h2⟩, h3⟩, h4⟩ := hall
  have e : f.reads.map (fun p => (p.1, Conv.addr.apply (args p.1))) =
      (f.reads.map (·.1)).map (fun n => (n, Conv.addr.apply (args n))) := by simp
  have e' : f.reads.map (fun p => (p.1, args p.1)) = (f.reads.map (·.1)).map (fun n => (n, args n)) := by simp
  have hg : f.get o' = .values [("value", .int (i % 65536))] := by
    rw [get_through h1 h (by rw [h2]; rfl) (by rw [h3]; simp), e, h4]
    simp [Conv.apply, hs]
  refine ⟨hg, ?_⟩
  unfold Returns
  rw [hg, e', h4]
  simp [hs]
  omega

/-- Colours of a colour space: returned as set exactly as long as the space is not one of the three fixed
ones or the colour is the one of the space anyway. -/
theorem C61_primaries : ∀ f ∈ fields, f.id ∈ primaries →
    ∀ o args o', o.mem "GdtfColorSpace.fColorSpace" = .enum "Custom" → Sets f o args o' → Returns f o' args := by
  intro f hf hid o args o' ho h
  have hall := all_fields (fun f => !decide (f.id ∈ primaries) ||
      (f.through .same && decide (lastWrite f.writes "GdtfColorSpace.fColorSpace" = none) && f.unset.isNone &&
        f.over.all (fun p => decide (p.1 ≠ "Custom"))))
      (by decide +kernel) f hf
  simp only [hid, decide_true, Bool.not_true, Bool.false_or, Bool.and_eq_true,
    Option.isNone_iff_eq_none, decide_eq_true_eq] at hall
  obtain ⟨⟨⟨h1, h2⟩, h3⟩, h4⟩ := hall
  unfold Returns
  have hm : o'.mem "GdtfColorSpace.fColorSpace" = .enum "Custom" := by rw [set_mem h, h2]; exact ho
  rw [get_through h1 h ?_ (by rw [h3]; simp)]
  · rfl
  · rw [List.find?_eq_none]
    intro p hp
    have := List.all_eq_true.1 h4 p hp
    rw [hm]
    simp at this ⊢
    exact fun hh => this hh.symm

/-- Violated: setting a colour of an sRGB, ProPhoto or ANSI space succeeds and has no effect, whatever the
colour and the object. -/
theorem C61_primaries_violated : ∀ f ∈ fields, f.id ∈ primaries → ∀ space ∈ ["sRGB", "ProPhoto", "ANSI"],
    ∀ o, o.isSet = true → o.mem "GdtfColorSpace.fColorSpace" = .enum space →
      ∃ v, ∀ args, ∃ o', Sets f o args o' ∧ f.get o' = .values [("value", v)] := by
  intro f hf hid space hsp o hset ho
  have hall := all_fields (fun f => !decide (f.id ∈ primaries) ||
      (decide (lastWrite f.writes "GdtfColorSpace.fColorSpace" = none) && f.unset.isNone && f.flag.isNone &&
        f.need.isEmpty && f.deny.isEmpty && decide (f.reads.map (·.1) = ["value"]) &&
        ["sRGB", "ProPhoto", "ANSI"].all (fun s => f.over.any (fun p => decide (p.1 = s)))))
      (by decide +kernel) f hf
  simp only [hid, decide_true, Bool.not_true, Bool.false_or, Bool.and_eq_true, List.isEmpty_iff,
    Option.isNone_iff_eq_none, decide_eq_true_eq] at hall
  obtain ⟨⟨⟨⟨⟨⟨h1, h2⟩, h3⟩, h4⟩, h5⟩, h6⟩, h7⟩ := hall
  have h8 := List.all_eq_true.1 h7 space hsp
  have hadm : f.admits o = true := by simp [Field.admits, hset, h4, h5]
  obtain ⟨p, hp⟩ : ∃ p, f.over.find? (fun p => decide (Val.enum space = .enum p.1)) = some p := by
    rw [← Option.isSome_iff_exists, List.find?_isSome]
    obtain ⟨p, hp, he⟩ := List.any_eq_true.1 h8
    exact ⟨p, hp, by simpa using (of_decide_eq_true he).symm⟩
  refine ⟨p.2, fun args => ?_⟩
  have hs : f.set o args = some (f.writes.foldl (fun o w => o.put w.1 (w.2.val args)) o) := by
    simp [Field.set, hadm]
  refine ⟨_, hs, ?_⟩
  have hm := set_mem hs "GdtfColorSpace.fColorSpace"
  rw [h1] at hm
  simp only [Option.map_none, Option.getD_none, ho] at hm
  unfold Field.get
  rw [set_self hs, h3, h2]
  have hval : ∀ m, f.value (f.writes.foldl (fun o w => o.put w.1 (w.2.val args)) o) m = p.2 := by
    intro m; unfold Field.value; rw [hm, hp]
  simp only [hval]
  have e' : f.reads.map (fun q => (q.1, p.2)) = (f.reads.map (·.1)).map (fun n => (n, p.2)) := by simp
  simp [e', h6]

/-- The numeric fixture id: returned as set, unless it is the largest one. -/
theorem C61_number : ∀ f ∈ fields, f.id ∈ numbers → ∀ o args o', Sets f o args o' →
    (args "value" ≠ .int (2 ^ 64 - 1) → Returns f o' args) ∧
    (args "value" = .int (2 ^ 64 - 1) → f.get o' = .notSet) := by
  intro f hf hid o args o' h
  have hall := all_fields (fun f => !decide (f.id ∈ numbers) ||
      (f.through .same && f.over.isEmpty && decide (f.unset = some (.int (2 ^ 64 - 1))) && f.flag.isNone &&
        decide (f.reads.map (·.1) = ["value"])))
      (by decide +kernel) f hf
  simp only [hid, decide_true, Bool.not_true, Bool.false_or, Bool.and_eq_true, List.isEmpty_iff,
    Option.isNone_iff_eq_none, decide_eq_true_eq] at hall
  obtain ⟨⟨⟨⟨h1, h2⟩, h3⟩, h5⟩, h4⟩ := hall
  have hv : ∀ p ∈ f.reads, p.1 = "value" := by
    intro p hp
    have : p.1 ∈ f.reads.map (·.1) := List.mem_map_of_mem hp
    rw [h4] at this
    simpa using this
  constructor
  · intro hne
    unfold Returns
    rw [get_through h1 h (by rw [h2]; rfl) ?_]
    · rfl
    · intro p hp
      rw [h3, hv p hp]
      simpa [Conv.apply] using fun e => hne e.symm
  · intro he
    unfold Field.through at h1
    simp only [Bool.and_eq_true, List.all_eq_true, decide_eq_true_eq] at h1
    obtain ⟨⟨h1, -⟩, -⟩ := h1
    unfold Field.get
    rw [set_self h, h5, h3]
    obtain ⟨p, hp⟩ : ∃ p, p ∈ f.reads := by
      cases hr : f.reads with
      | nil => rw [hr] at h4; cases h4
      | cons p _ => exact ⟨p, by simp⟩
    have hm : f.value o' p.2 = .int (2 ^ 64 - 1) := by
      unfold Field.value
      rw [h2, List.find?_nil]
      show o'.mem p.2 = _
      rw [set_mem h, h1 p hp, hv p hp]
      simpa [Src.val, Conv.apply] using he
    have ha : f.reads.any (fun p => decide (some (Val.int (2 ^ 64 - 1)) = some (f.value o' p.2))) = true := by
      rw [List.any_eq_true]
      exact ⟨p, hp, by simp [hm]⟩
    simp only [ha, Bool.not_true, Bool.false_eq_true, if_false, Option.any_none, if_true]

/-- Violated: the type of a connector is not changed by its setter, which succeeds, but the name is. -/
theorem C61_connector_violated (o : Inst) (h : o.isSet = true) :
    ∃ f ∈ fields, f.id = ("CGdtfConnectorImpl", "Type") ∧ ∃ g ∈ fields, g.id = ("CGdtfConnectorImpl", "Name") ∧
      ∀ args, ∃ o', Sets f o args o' ∧ f.get o' = f.get o ∧ Returns g o' args := by
  obtain ⟨f, hf, h1, h2⟩ : ∃ f ∈ fields, f.id = ("CGdtfConnectorImpl", "Type") ∧
      f = { f with need := [], deny := [], writes := [("GdtfConnector.fName", .arg "value" .same)],
                   flag := none, reads := [("value", "GdtfConnector.fType")], unset := none, over := [] } := by
    decide +kernel
  obtain ⟨g, hg, h3, h4⟩ : ∃ g ∈ fields, g.id = ("CGdtfConnectorImpl", "Name") ∧
      g = { g with need := [], deny := [], flag := none, reads := [("value", "GdtfConnector.fName")],
                   unset := none, over := [] } := by
    decide +kernel
  refine ⟨f, hf, h1, g, hg, h3, fun args => ⟨o.put "GdtfConnector.fName" (args "value"), ?_, ?_, ?_⟩⟩
  · unfold Sets; rw [h2]; simp [Field.set, Field.admits, h, Src.val, Conv.apply]
  · rw [h2]; simp [Field.get, Field.value, Field.admits, h, Inst.put]
  · unfold Returns; rw [h4]; simp [Field.get, Field.value, Field.admits, h, Inst.put]

/-- Violated: the setter of the model of a geometry succeeds and changes nothing. -/
theorem C61_model_violated (o : Inst) (h : o.isSet = true) :
    ∃ f ∈ fields, f.id = ("CGdtfGeometryImpl", "Model") ∧ ∀ args, Sets f o args o := by
  obtain ⟨f, hf, h1, h2⟩ : ∃ f ∈ fields, f.id = ("CGdtfGeometryImpl", "Model") ∧
      f = { f with need := [], deny := [], writes := [] } := by decide +kernel
  refine ⟨f, hf, h1, fun args => ?_⟩
  unfold Sets; rw [h2]; simp [Field.set, Field.admits, h]

/-- `f` assigns no member that `g` looks at. -/
def independent (f g : Field) : Bool :=
  f.writes.all fun w => !(g.reads.any fun p => decide (p.2 = w.1)) && !decide (g.flag = some w.1) &&
    (g.over.isEmpty || decide (w.1 ≠ "GdtfColorSpace.fColorSpace"))

theorem lastWrite_none {ws : List (String × Src)} {m : String} (h : ∀ w ∈ ws, w.1 ≠ m) :
    lastWrite ws m = none := by
  unfold lastWrite
  induction ws with
  | nil => rfl
  | cons w ws ih =>
    simp only [List.foldl_cons]
    rw [if_neg (h w (by simp))]
    exact ih fun w hw => h w (by simp [hw])

theorem get_independent {f g : Field} (hi : independent f g = true) {o o' : Inst} {args : String → Val}
    (h : f.set o args = some o') : g.get o' = g.get o := by
  unfold independent at hi
  rw [List.all_eq_true] at hi
  have hr : ∀ p ∈ g.reads, o'.mem p.2 = o.mem p.2 := by
    intro p hp
    rw [set_mem h, lastWrite_none]
    · rfl
    · intro w hw he
      have := hi w hw
      simp only [Bool.and_eq_true, Bool.not_eq_true', List.any_eq_false, decide_eq_true_eq] at this
      exact this.1.1 p hp he.symm
  have hfl : ∀ m, g.flag = some m → o'.mem m = o.mem m := by
    intro m hm
    rw [set_mem h, lastWrite_none]
    · rfl
    · intro w hw he
      have := hi w hw
      simp only [Bool.and_eq_true, Bool.not_eq_true', decide_eq_false_iff_not] at this
      exact this.1.2 (by rw [hm, he])
  have hov : g.over ≠ [] → o'.mem "GdtfColorSpace.fColorSpace" = o.mem "GdtfColorSpace.fColorSpace" := by
    intro hne
    rw [set_mem h, lastWrite_none]
    · rfl
    · intro w hw he
      have := hi w hw
      simp only [Bool.and_eq_true, Bool.or_eq_true, List.isEmpty_iff, decide_eq_true_eq] at this
      exact this.2.elim hne (fun hh => hh he)
  unfold Field.get
  rw [set_admits h]
  have e1 : g.flag.any (fun m => decide (o'.mem m ≠ .flag true)) =
      g.flag.any (fun m => decide (o.mem m ≠ .flag true)) := by
    cases hg : g.flag with
    | none => rfl
    | some m => simp [hfl m hg]
  have e2 : g.over.find? (fun p => decide (o'.mem "GdtfColorSpace.fColorSpace" = .enum p.1)) =
      g.over.find? (fun p => decide (o.mem "GdtfColorSpace.fColorSpace" = .enum p.1)) := by
    by_cases hne : g.over = []
    · rw [hne]; rfl
    · rw [hov hne]
  have e3 : ∀ p ∈ g.reads, g.value o' p.2 = g.value o p.2 := by
    intro p hp
    unfold Field.value
    rw [e2, hr p hp]
  have e4 : g.reads.any (fun p => decide (g.unset = some (g.value o' p.2))) =
      g.reads.any (fun p => decide (g.unset = some (g.value o p.2))) := by
    rw [Bool.eq_iff_iff, List.any_eq_true, List.any_eq_true]
    constructor
    · rintro ⟨p, hp, hh⟩; exact ⟨p, hp, by rw [← e3 p hp]; exact hh⟩
    · rintro ⟨p, hp, hh⟩; exact ⟨p, hp, by rw [e3 p hp]; exact hh⟩
  have e5 : g.reads.map (fun p => (p.1, g.value o' p.2)) = g.reads.map (fun p => (p.1, g.value o p.2)) := by
    apply List.map_congr_left
    intro p hp
    rw [e3 p hp]
  rw [e1, e4, e5]

/-- **C61**, other fields: setting a field does not change what the getter of another field of the same class
returns.  Missing: the eight entangled pairs. -/
theorem C61_frame_partial : ∀ f ∈ fields, ∀ g ∈ fields, f.cls = g.cls → f.field ≠ g.field →
    (f.cls, f.field, g.field) ∉ entangled →
    ∀ o args o', Sets f o args o' → g.get o' = g.get o := by
  intro f hf g hg hc hne hent o args o' h
  have hall : fieldsByClass.all (fun l => l.all fun f => l.all fun g =>
      independent f g || decide (f.field = g.field) || decide ((f.cls, f.field, g.field) ∈ entangled)) = true := by
    decide +kernel
  have hcls : (fieldsByClass.map fun l => (l.head?.map (·.cls)).getD "").Nodup ∧
      fieldsByClass.all (fun l => l.all fun f => decide (f.cls = (l.head?.map (·.cls)).getD "")) = true := by
    decide +kernel
  unfold fields at hf hg
  obtain ⟨l, hl, hfl⟩ := List.mem_flatten.1 hf
  obtain ⟨k, hk, hgk⟩ := List.mem_flatten.1 hg
  have hcf := of_decide_eq_true (List.all_eq_true.1 (List.all_eq_true.1 hcls.2 l hl) f hfl)
  have hcg := of_decide_eq_true (List.all_eq_true.1 (List.all_eq_true.1 hcls.2 k hk) g hgk)
  have hlk : l = k := by
    obtain ⟨i, hi, rfl⟩ := List.getElem_of_mem hl
    obtain ⟨j, hj, rfl⟩ := List.getElem_of_mem hk
    have hij : i = j := by
      have hp := List.pairwise_iff_getElem.1 hcls.1
      rcases Nat.lt_trichotomy i j with hij | hij | hij
      · exact absurd (hcf.symm.trans (hc.trans hcg))
          (by have := hp i j (by simpa using hi) (by simpa using hj) hij
              rw [List.getElem_map, List.getElem_map] at this; exact this)
      · exact hij
      · exact absurd (hcg.symm.trans (hc.symm.trans hcf))
          (by have := hp j i (by simpa using hj) (by simpa using hi) hij
              rw [List.getElem_map, List.getElem_map] at this; exact this)
    subst hij; rfl
  subst hlk
  have := List.all_eq_true.1 (List.all_eq_true.1 (List.all_eq_true.1 hall l hl) f hfl) g hgk
  simp only [hne, hent, decide_false, Bool.or_false] at this
  exact get_independent this h

/-- Violated: for each of the eight pairs there is an object where setting the first field changes what the
getter of the second returns. -/
theorem C61_frame_violated : ∀ e ∈ entangled, ∃ f ∈ fields, ∃ g ∈ fields, f.id = (e.1, e.2.1) ∧
    g.id = (e.1, e.2.2) ∧
    ∃ o o' args, Sets f o args o' ∧ g.get o' ≠ g.get o := by
  intro e he
  have key : entangled.all (fun e => (fieldsByClass.flatten).any fun f => decide (f.id = (e.1, e.2.1)) &&
      (fieldsByClass.flatten).any fun g => decide (g.id = (e.1, e.2.2)) &&
        match f.set (fresh "x") (only (.enum "sRGB")) with
        | some o' => decide (g.get o' ≠ g.get (fresh "x"))
        | none => false) = true := by decide +kernel
  have := List.all_eq_true.1 key e he
  obtain ⟨f, hf, hh⟩ := List.any_eq_true.1 this
  rw [Bool.and_eq_true] at hh
  obtain ⟨h1, hh⟩ := hh
  obtain ⟨g, hg, hh⟩ := List.any_eq_true.1 hh
  rw [Bool.and_eq_true] at hh
  obtain ⟨h2, hh⟩ := hh
  refine ⟨f, hf, g, hg, of_decide_eq_true h1, of_decide_eq_true h2, fresh "x", ?_⟩
  split at hh
  · rename_i o' ho'
    exact ⟨o', _, ho', of_decide_eq_true hh⟩
  · cases hh

/-- The files of a model: the GLTF file is returned as it was set and is not touched by the other two. -/
theorem C61_gltf_partial (b : Buffers) (d : List (BitVec 8)) :
    (b.setGLTF d).getGLTF = some d ∧ (b.set3DS d).getGLTF = b.getGLTF ∧ (b.setSVG d).getGLTF = b.getGLTF :=
  ⟨rfl, rfl, rfl⟩

/-- Violated: a 3DS or SVG file that was set is reported as not set, and one that was not set as an empty
file. -/
theorem C61_buffer_violated (b : Buffers) (d : List (BitVec 8)) :
    (b.set3DS d).get3DS = none ∧ (b.setSVG d).getSVG = none ∧
    (⟨none, none, none⟩ : Buffers).get3DS = some [] ∧ (⟨none, none, none⟩ : Buffers).getSVG = some [] :=
  ⟨rfl, rfl, rfl, rfl⟩

/-- 263 rows, no two of a class for the same field. -/
theorem C61_table : fields.length = 263 ∧ ∀ l ∈ fieldsByClass, (l.map (·.field)).Nodup := by decide +kernel

/-- A case of `C61_partial`: the colour of an attribute, not set before. -/
example : ∃ f ∈ fields, f.id = ("CGdtfAttributeImpl", "Color") ∧
    f.id ∉ cleanedNames ++ offsets ++ primaries ++ broken ++ numbers ∧
    f.get (fresh "") = .notSet ∧
    (f.set (fresh "") (only (.nums [1, 2, 3]))).map f.get = some (.values [("value", .nums [1, 2, 3])]) := by
  decide +kernel

/-- A case of `C61_offsets`: the offset -1 comes back as 65535. -/
example : ∃ f ∈ fields, f.id ∈ offsets ∧
    (f.set (fresh "") (only (.int (-1)))).map f.get = some (.values [("value", .int 65535)]) := by
  decide +kernel

/-- A case of `C61_names`: `A!B` comes back as `AB`. -/
example : ∃ f ∈ fields, f.id ∈ cleanedNames ∧
    (f.set (fresh "") (only (.text [65, 33, 66]))).map f.get = some (.values [("value", .text [65, 66])]) := by
  decide +kernel

/-- A case of `C61_primaries`. -/
example : ∃ f ∈ fields, f.id ∈ primaries ∧
    (f.set ((fresh "").put "GdtfColorSpace.fColorSpace" (.enum "Custom")) (only (.nums [1, 2, 3]))).map f.get =
      some (.values [("value", .nums [1, 2, 3])]) ∧
    (f.set ((fresh "").put "GdtfColorSpace.fColorSpace" (.enum "sRGB")) (only (.nums [1, 2, 3]))).map f.get ≠
      some (.values [("value", .nums [1, 2, 3])]) := by
  decide +kernel

/-- A case of `C61_number`. -/
example : ∃ f ∈ fields, f.id ∈ numbers ∧
    (f.set (fresh "Fixture") (only (.int 7))).map f.get = some (.values [("value", .int 7)]) ∧
    (f.set (fresh "Fixture") (only (.int (2 ^ 64 - 1)))).map f.get = some .notSet := by
  decide +kernel

/-- A case of `C61_frame_partial`. -/
example : ∃ f ∈ fields, ∃ g ∈ fields, f.cls = g.cls ∧ f.field ≠ g.field ∧
    (f.cls, f.field, g.field) ∉ entangled ∧ (f.set (fresh "") (only (.int 1))).isSome := by
  decide +kernel

/-! ### C62 -/

/-- **C62**, setters: for every setter of a name outside `rawNames`, whatever the characters passed, the name the
getter returns has allowed characters only, and a name with allowed characters only is returned as it was
passed. -/
theorem C62_setters_partial : ∀ f ∈ fields, f.field = "Name" → f.id ∉ rawNames →
    ∀ o args o' s, args "value" = .text s → Sets f o args o' →
      ∃ r, f.get o' = .values [("value", .text r)] ∧ (∀ c ∈ r, Name.Allowed c) ∧
        ((∀ c ∈ s, Name.Allowed c) → r = s) := by
  intro f hf hn hr o args o' s hs h
  have hall := all_fields (fun f => !decide (f.field = "Name") || decide (f.id ∈ rawNames) ||
      decide (f.id ∈ cleanedNames)) (by decide +kernel) f hf
  simp only [hn, hr, decide_true, decide_false, Bool.not_true, Bool.false_or, decide_eq_true_eq] at hall
  refine ⟨_, C61_names f hf hall o args o' s hs h, ?_, ?_⟩
  · intro c hc
    simpa using (List.mem_filter.1 hc).2
  · intro hall
    rw [List.filter_eq_self]
    simpa using hall

/-- Violated: the six setters in `rawNames` keep every character, allowed or not. -/
theorem C62_setters_violated : ∀ f ∈ fields, f.id ∈ rawNames → ∀ o args o' s, args "value" = .text s →
    Sets f o args o' → f.get o' = .values [("value", .text s)] := by
  intro f hf hr o args o' s hs h
  have hall := all_fields (fun f => !decide (f.id ∈ rawNames) ||
      (decide (f.id ∉ cleanedNames ++ offsets ++ primaries ++ broken ++ numbers) &&
        decide (f.reads.map (·.1) = ["value"]))) (by decide +kernel) f hf
  simp only [hr, decide_true, Bool.not_true, Bool.false_or, Bool.and_eq_true, decide_eq_true_eq] at hall
  have e' : f.reads.map (fun p => (p.1, args p.1)) = (f.reads.map (·.1)).map (fun n => (n, args n)) := by simp
  have := C61_partial f hf hall.1 o args o' h
  unfold Returns at this
  rw [this, e', hall.2]
  simp [hs]

/-- The functions that create an object and clean its name. -/
def cleaning : List (String × String) := [
  ("CGdtfDmxChannelFunctionImpl", "CreateDmxChannelSet"), ("CGdtfDmxChannelFunctionImpl", "CreateDmxSubChannelSet"),
  ("CGdtfFeatureGroupImpl", "CreateFeature"), ("CGdtfFixtureImpl", "CreateActivationGroup"),
  ("CGdtfFixtureImpl", "CreateWheel"), ("CGdtfFixtureImpl", "CreateDmxMode"),
  ("CGdtfGeometryImpl", "CreateGeometry"), ("CGdtfGeometryImpl", "CreateLaserProtocol"),
  ("CGdtfWheelImpl", "CreateWheelSlot")]

/-- **C62**, creators: nine of the 21 functions that create a named object give it a name with allowed
characters only, and the name that was passed if that has allowed characters only. -/
theorem C62_creators_partial : ∀ k ∈ creators, (k.1, k.2.1) ∈ cleaning → ∀ s,
    (∀ c ∈ createdName k.2.2 s, Name.Allowed c) ∧ ((∀ c ∈ s, Name.Allowed c) → createdName k.2.2 s = s) := by
  intro k hk hc s
  have : k.2.2 = true := by
    have : ∀ k ∈ creators, (k.1, k.2.1) ∈ cleaning → k.2.2 = true := by decide +kernel
    exact this k hk hc
  rw [this]
  simp only [createdName, if_true, Name.C24_clean s _ (Nat.le_refl _), Option.getD_some]
  constructor
  · intro c hc
    simpa using (List.mem_filter.1 hc).2
  · intro hall
    rw [List.filter_eq_self]
    simpa using hall

/-- Violated: the other twelve keep every character. -/
theorem C62_creators_violated : ∀ k ∈ creators, (k.1, k.2.1) ∉ cleaning → ∀ s, createdName k.2.2 s = s := by
  intro k hk hc s
  have : k.2.2 = false := by
    have : ∀ k ∈ creators, (k.1, k.2.1) ∉ cleaning → k.2.2 = false := by decide +kernel
    exact this k hk hc
  rw [this]
  rfl

/-- Cases: `A!` is not an allowed name; the name of a macro keeps it. -/
example : ¬ (∀ c ∈ ([65, 33] : List (BitVec 16)), Name.Allowed c) ∧
    (∃ f ∈ fieldsGdtfMacro, f.id ∈ rawNames ∧
      (f.set (fresh "") (only (.text [65, 33]))).map f.get = some (.values [("value", .text [65, 33])])) := by
  refine ⟨fun h => ?_, by decide +kernel⟩
  have := h 33 (by simp)
  unfold Name.Allowed at this
  simp at this

/-- A new wheel gets the name `A` for `A!`, a new model `A!`. -/
example : ("CGdtfFixtureImpl", "CreateWheel") ∈ cleaning ∧ ("CGdtfFixtureImpl", "CreateWheel", true) ∈ creators ∧
    createdName true [65, 33] = [65] ∧
    ("CGdtfFixtureImpl", "CreateModel") ∉ cleaning ∧ ("CGdtfFixtureImpl", "CreateModel", false) ∈ creators ∧
    createdName false [65, 33] = [65, 33] := by
  decide +kernel

end Verif.Api
