import Verif.Gdtf.SaveTree

/-!
# C93: a GDTF description that was read can be saved and read again
-/

namespace Verif.Gdtf

open Spec
open Verif.Lookup (Txt)
open Verif.Str Verif.Real Verif.Text Verif.Dmx Verif.Enum
open Verif.Node (Item Kind kinds getAttr)
open Verif.Mvr.Spec (Near RoundedNum)

/-- A fixture read from a node: the objects behind the constructors are those of the code. -/
def fixtureRead (F : Fl) (m : Memory) (e : Elem) : Obj Members := readValues F (ctor m) (madeObj m) "GdtfFixture" e

/-- The fixture after saving and reading. -/
def fixtureAgain (F : Fl) (m : Memory) (o : Obj Members) : Obj Members := fixtureRead F m (writeValues F (ctor m) (madeObj m) o)

theorem fixture_class : ∃ c ∈ classes, c.name = "GdtfFixture" ∧ nodeFor "GdtfFixture" = "FixtureType" := by decide +kernel

theorem fixture_well (F : Fl) (m : Memory) (hm : Numbers m) (e : Elem) (hw : sameWord e.name "FixtureType" = true) (hs : Sane e) :
    Well (Fine m) 2 (fixtureRead F m e) := by
  obtain ⟨c, hc, hn, ht⟩ := fixture_class
  have := reading_well F m hm e.depth e (Nat.le_refl _) 2 ⟨by decide, by decide⟩ c hc (by rw [hn]; decide) (by rw [hn, ht]; exact hw) hs
  rw [hn] at this
  exact this

theorem fixture_ordinary (F : Fl) (m : Memory) (hm : Numbers m) (e : Elem) (hw : sameWord e.name "FixtureType" = true) (hs : Sane e) (o : Obj Members)
    (ho : Resolved m (fixtureRead F m e) o) : Well (Ready m) 2 o ∧ Ordinary (ctor m) o ∧ o.cls = "GdtfFixture" := by
  have h := resolved_well (fixture_well F m hm e hw hs) o ho
  exact ⟨h, ready_ordinary h, by rw [resolved_cls ho]; exact reading_cls F m (madeObj m) 2 "GdtfFixture" e⟩

/-! ### Resolving -/

/-- The objects at a place, before and after. -/
theorem resolved_at {m : Memory} : ∀ (p : List (Nat × Nat)) {o o' : Obj Members}, Resolved m o o' → ∀ cls d, classAt o p = some cls → dataAt o p = some d →
    ∃ d', classAt o' p = some cls ∧ dataAt o' p = some d' ∧ Settled m cls d d' := by
  intro p
  induction p with
  | nil =>
    intro o o' h cls d h1 h2
    cases h with
    | mk c d0 d' ks ks' hd hl hn hk =>
      simp only [classAt, dataAt, Obj.at, Option.map_some, Obj.cls, Option.some.injEq] at h1 h2
      subst h1 h2
      exact ⟨d', rfl, rfl, hd⟩
  | cons ij p ih =>
    obtain ⟨i, j⟩ := ij
    intro o o' h cls d h1 h2
    cases h with
    | mk c d0 d' ks ks' hd hl hn hk =>
      simp only [classAt, dataAt, Obj.at] at h1 h2 ⊢
      cases hx : (ks[i]?).bind (fun k => k[j]?) with
      | none => rw [hx] at h1; cases h1
      | some x =>
        rw [hx] at h1 h2
        obtain ⟨k, hk1, hk2⟩ := Option.bind_eq_some_iff.1 hx
        have hi : i < ks'.length := by
          rw [← hl]
          exact (List.getElem?_eq_some_iff.1 hk1).1
        have h3 : ks'[i]? = some ks'[i] := List.getElem?_eq_getElem hi
        have hj : j < ks'[i].length := by
          rw [← hn i _ _ hk1 h3]
          exact (List.getElem?_eq_some_iff.1 hk2).1
        have h4 : ks'[i][j]? = some ks'[i][j] := List.getElem?_eq_getElem hj
        rw [h3]
        simp only [Option.bind_some, h4]
        exact ih (hk i j _ _ _ _ hk1 h3 hk2 h4) cls d h1 h2

open Classical in
/-- References that are not found: there is a description after resolving, for every one that was read. -/
theorem resolved_exists {m : Memory} {n : Nat} {o : Obj Members} (h : Well (Fine m) n o) : ∃ o', Resolved m o o' := by
  induction h with
  | mk n c d ks hc hp hn hf hq hk ih =>
    have ih' : ∀ x, (∃ k ∈ ks, x ∈ k) → ∃ x', Resolved m x x' := fun x ⟨k, h1, h2⟩ => ih k h1 x h2
    let g : Obj Members → Obj Members := fun x => if h : ∃ x', Resolved m x x' then choose h else x
    have hg : ∀ x, (∃ k ∈ ks, x ∈ k) → Resolved m x (g x) := by
      intro x hx
      have := ih' x hx
      show Resolved m x (if h : ∃ x', Resolved m x x' then choose h else x)
      rw [dif_pos this]
      exact choose_spec this
    have hlater : ∀ f, Later c.name f → AlikeLater (ctor m c.name f) (ctor m c.name f) := by
      rintro f ⟨u, hu⟩
      obtain ⟨h1, h2⟩ := table_later_kinds _ hu
      rw [ctor_made m _ _ h1]
      rcases h2 with h2 | h2 <;> rw [h2] <;> exact ⟨_, rfl⟩
    refine ⟨.mk c.name (fun f => if Later c.name f then ctor m c.name f else d f) (ks.map (·.map g)), .mk _ _ _ _ _ ⟨?_, ?_, ?_⟩ (by simp) ?_ ?_⟩
    · intro f hl
      exact if_neg hl
    · intro f hl
      simp only [if_pos hl]
      exact hlater f hl
    · rintro e ⟨h1, -⟩
      have hl : Later c.name "fModeMaster_Channel" := ⟨"fUnresolvedModeMaster", by rw [e]; decide +kernel⟩
      simp only [if_pos hl] at h1
      have hz : ctor m "GdtfDmxChannelFunction" "fModeMaster_Channel" = .link none := by
        rw [ctor_made m _ _ (by decide +kernel)]
        decide +kernel
      rw [e, hz] at h1
      cases h1
    · intro i k k' h1 h2
      rw [List.getElem?_map, h1] at h2
      cases h2
      simp
    · intro i j k k' x x' h1 h2 h3 h4
      rw [List.getElem?_map, h1] at h2
      cases h2
      rw [List.getElem?_map, h3] at h4
      cases h4
      exact hg x ⟨k, List.mem_of_getElem? h1, List.mem_of_getElem? h3⟩

/-! ### The theorems -/

/-- **C93, values.** Read any description with reasonable numbers, resolve its references in any way, save it and read it again: wherever an object
was after the first reading, there is one of the same class, and every member that was written has the value it had, up to the decimals that are not
written. -/
theorem C93_values_partial (F : Fl) (m : Memory) (hm : Numbers m) (e : Elem) (hw : sameWord e.name "FixtureType" = true) (hs : Sane e) (o : Obj Members)
    (ho : Resolved m (fixtureRead F m e) o) (p : List (Nat × Nat)) (cls : String) (d : Members) (hc : classAt (fixtureRead F m e) p = some cls)
    (hd : dataAt (fixtureRead F m e) p = some d) :
    classAt (fixtureAgain F m o) p = some cls ∧
      ∃ d1, dataAt o p = some d1 ∧ ∀ i, Writes cls i → i.guard.holds (cond d1) = true →
        ∃ d2, dataAt (fixtureAgain F m o) p = some d2 ∧ Close (d i.field) (d2 i.field) := by
  obtain ⟨hwell, hord, hcls⟩ := fixture_ordinary F m hm e hw hs o ho
  obtain ⟨d1, hc1, hd1, hset⟩ := resolved_at p ho cls d hc hd
  refine ⟨?_, d1, hd1, ?_⟩
  · have hp := C63_places (valueSchema F (ctor m) (madeObj m)) rfl (walk (fun n d f => dmxText n (d f)) 2 o) (tree_walk _ o hord.tree 2)
      (by intro q; rw [class_walk]; exact hord.noPreset q) p
    rw [walk_cls, hcls, class_walk, hc1] at hp
    unfold fixtureAgain fixtureRead readValues
    rw [class_walk]
    exact hp
  · intro i hi hg
    have hlat : ¬ Later cls i.field := by
      rintro ⟨u, hu⟩
      obtain ⟨k, hk, -, -, -, -, hx⟩ := hi
      exact hx u hu
    rw [← hset.same i.field hlat]
    have := C80_values_partial F (ctor m) (madeObj m) (C85_suitable m) o hord p cls d1 hc1 hd1 (fun e1 => (well_at hwell p cls d1 hc1 hd1).1.2.1 e1) i hi hg
    rw [hcls] at this
    exact this

/-- **C93, places.** No object is lost and none appears. -/
theorem C93_places (F : Fl) (m : Memory) (hm : Numbers m) (e : Elem) (hw : sameWord e.name "FixtureType" = true) (hs : Sane e) (o : Obj Members)
    (ho : Resolved m (fixtureRead F m e) o) (p : List (Nat × Nat)) : classAt (fixtureAgain F m o) p = classAt o p := by
  obtain ⟨hwell, hord, hcls⟩ := fixture_ordinary F m hm e hw hs o ho
  have hp := C63_places (valueSchema F (ctor m) (madeObj m)) rfl (walk (fun n d f => dmxText n (d f)) 2 o) (tree_walk _ o hord.tree 2)
      (by intro q; rw [class_walk]; exact hord.noPreset q) p
  rw [walk_cls, hcls, class_walk] at hp
  unfold fixtureAgain fixtureRead readValues
  rw [class_walk]
  exact hp

/-- **C93, references.** A reference that was found, and the channel value of a mode master or a macro, are read as the texts they were saved as. -/
theorem C93_links (F : Fl) (m : Memory) (hm : Numbers m) (e : Elem) (hw : sameWord e.name "FixtureType" = true) (hs : Sane e) (o : Obj Members)
    (ho : Resolved m (fixtureRead F m e) o) (p : List (Nat × Nat)) (d : Members) (k : Kind) (hk : k ∈ kinds) (hc : classAt o p = some k.name)
    (hd : dataAt o p = some d) (i : Item) (hwi : i ∈ k.writes) (hdef : Later k.name i.field) (hg : i.guard.holds (cond d) = true) (t : Txt)
    (ht : (i.codec = .ref ∧ d i.field = .link (some t)) ∨ (i.codec = .val "ConvertDMXValue" ∧ d i.field = .raw t)) :
    ∃ d' u, dataAt (fixtureAgain F m o) p = some d' ∧ (k.name, u, i.field) ∈ Node.Spec.deferred ∧ d' u = .text t := by
  obtain ⟨hwell, hord, hcls⟩ := fixture_ordinary F m hm e hw hs o ho
  have := C80_links F (ctor m) (madeObj m) (C85_suitable m) o hord p d k hk hc hd i hwi hdef hg t ht
  rw [hcls] at this
  exact this

/-- **C93, wheel slots.** What is not written of a wheel slot, because it is empty or zero, is empty or zero again. -/
theorem C93_wheel_slot (F : Fl) (m : Memory) (hm : Numbers m) (e : Elem) (hw : sameWord e.name "FixtureType" = true) (hs : Sane e) (o : Obj Members)
    (ho : Resolved m (fixtureRead F m e) o) (p : List (Nat × Nat)) (d : Members) (hc : classAt o p = some "GdtfWheelSlot") (hd : dataAt o p = some d)
    (f : String) (hf : f ∈ ["fGobo", "fDuration", "fWidth", "fHeight", "fFPS"]) :
    ∃ d', dataAt (fixtureAgain F m o) p = some d' ∧ Close (d f) (d' f) := by
  obtain ⟨hwell, hord, hcls⟩ := fixture_ordinary F m hm e hw hs o ho
  have hinit : ∀ i ∈ slotItems, nonzero (ctor m "GdtfWheelSlot" i.field) = false := by
    have h1 : ∀ i ∈ slotItems, unset.find? (fun p => p.1 == ("GdtfWheelSlot", i.field)) = none ∧ nonzero (made "GdtfWheelSlot" i.field) = false := by
      decide +kernel
    intro i hi
    rw [ctor_made m _ _ (h1 i hi).1]
    exact (h1 i hi).2
  have := C80_wheel_slot F (ctor m) (madeObj m) (C85_suitable m) hinit o hord p d hc hd f hf
  rw [hcls] at this
  exact this

/-- **C93, flags.** An attribute has a colour, a channel set has physical values, a fixture has a link to another one, if it had one before. -/
theorem C93_flags (F : Fl) (m : Memory) (hm : Numbers m) (e : Elem) (hw : sameWord e.name "FixtureType" = true) (hs : Sane e) (o : Obj Members)
    (ho : Resolved m (fixtureRead F m e) o) (p : List (Nat × Nat)) (cls f : String) (d : Members) (b : Bool)
    (hcf : (cls, f) ∈ [("GdtfAttribute", "fHasColor"), ("GdtfDmxChannelSet", "fSetPhysical"), ("GdtfFixture", "fHasLinkedGuid")])
    (hc : classAt o p = some cls) (hd : dataAt o p = some d) (hb : d f = .flag b) :
    ∃ d', dataAt (fixtureAgain F m o) p = some d' ∧ d' f = .flag b := by
  obtain ⟨hwell, hord, hcls⟩ := fixture_ordinary F m hm e hw hs o ho
  simp only [List.mem_cons, Prod.mk.injEq, List.not_mem_nil, or_false] at hcf
  rcases hcf with ⟨rfl, rfl⟩ | ⟨rfl, rfl⟩ | ⟨rfl, rfl⟩
  · have hi : ctor m "GdtfAttribute" "fHasColor" = .flag false := by
      rw [ctor_made m _ _ (by decide +kernel)]
      decide +kernel
    have := C80_has_color F (ctor m) (madeObj m) (C85_suitable m) o hord p d hc hd b hb hi
    rwa [hcls] at this
  · have := C80_set_physical F (ctor m) (madeObj m) (C85_suitable m) o hord p d hc hd b hb
    rwa [hcls] at this
  · have := C80_linked_fixture F (ctor m) (madeObj m) (C85_suitable m) o hord p d hc hd b hb
    rwa [hcls] at this

/-- **C93, reading.** Reading such a description is never undefined, whatever its texts are, and leaves in every member a value of its type that the
format has a text for. -/
theorem C93_sound (F : Fl) (m : Memory) (hm : Numbers m) (e : Elem) (hw : sameWord e.name "FixtureType" = true) (hs : Sane e)
    (p : List (Nat × Nat)) (cls : String) (d : Members) (hc : classAt (fixtureRead F m e) p = some cls) (hd : dataAt (fixtureRead F m e) p = some d)
    (f : String) (hf : ¬ Later cls f) :
    d f ≠ .undef ∧ typeOf (d f) = typeOf (ctor m cls f) ∧ Kept (bytesAt 2 (fixtureRead F m e) p) (d f) := by
  obtain ⟨h1, h2⟩ := (well_at (fixture_well F m hm e hw hs) p cls d hc hd).1.1 f hf
  exact ⟨fun e => by rw [e] at h2; exact h2, h1, h2⟩

/-- There is a description after resolving. -/
theorem C93_resolved (F : Fl) (m : Memory) (hm : Numbers m) (e : Elem) (hw : sameWord e.name "FixtureType" = true) (hs : Sane e) :
    ∃ o, Resolved m (fixtureRead F m e) o := resolved_exists (fixture_well F m hm e hw hs)

/-! ### A description -/

theorem nine_short {s : List Char} (h : s.length ≤ 9) : NineDigits s := fun _ hd _ => Nat.le_trans hd.length_le h

/-- The texts of a node of which something is asked. -/
def askedTexts (e : Elem) : List (Limit × List Char) :=
  limits.filterMap (fun q => if sameWord e.name q.1 then (getAttr e.attrs q.2.1).map (fun t => (q.2.2, toChars t)) else none)

theorem sane_node {e : Elem} (h : ∀ p ∈ askedTexts e, p.1.Meets p.2)
    (hn : needed.all (fun q => !sameWord e.name q.1 || decide ((getAttr e.attrs q.2).getD [] ≠ [])) = true) : SaneNode e where
  limits := by
    intro q hq hw t ht
    apply h (q.2.2, toChars t)
    unfold askedTexts
    rw [List.mem_filterMap]
    exact ⟨q, hq, by rw [if_pos hw, ht]; rfl⟩
  needed := by
    intro q hq hw
    have := List.all_eq_true.1 hn q hq
    rw [hw] at this
    have := of_decide_eq_true (by simpa using this)
    cases hg : getAttr e.attrs q.2 with
    | none => rw [hg] at this; simp at this
    | some t => exact ⟨t, rfl, by rw [hg] at this; simpa using this⟩

theorem sane_mk {n : String} {a : Attrs} {ks : List Elem} (h : SaneNode (.mk n a ks)) (hk : ∀ k ∈ ks, Sane k) : Sane (.mk n a ks) := by
  intro x hx
  cases hx with
  | self => exact h
  | kid _ c _ hc hx => exact hk c hc x hx

/-- A channel with two bytes, its default value given for one. -/
def channelNode : Elem := .mk "DMXChannel" [("DMXBreak", toTxt "1".toList), ("Offset", toTxt "1,2".toList), ("Default", toTxt "200/1".toList)] []

/-- A fixture with a picture as a slot of a wheel, whose node has its name in lower case, and with a mode. -/
def spotNode : Elem := .mk "FixtureType" [("Name", toTxt "Spot".toList), ("ThumbnailOffsetX", toTxt "12 pixels".toList)]
  [.mk "Wheels" [] [.mk "Wheel" [("Name", toTxt "Gobos".toList)] [.mk "slot" [("Name", toTxt "Stars".toList), ("Width", toTxt "640".toList)] []]],
   .mk "DMXModes" [] [.mk "DMXMode" [("Name", toTxt "Basic".toList)] [.mk "DMXChannels" [] [channelNode]]]]

theorem channel_sane : Sane channelNode := by
  apply sane_mk _ (by simp)
  apply sane_node _ (by decide +kernel)
  have : askedTexts channelNode = [(.number, "1".toList), (.offset, "1,2".toList), (.value, "200/1".toList)] := by decide +kernel
  intro p hp
  rw [show Elem.mk "DMXChannel" _ [] = channelNode from rfl, this] at hp
  simp only [List.mem_cons, List.not_mem_nil, or_false] at hp
  rcases hp with rfl | rfl | rfl
  · exact nine_short (by decide)
  · right
    refine ⟨⟨1, 2, 0, 0⟩, by unfold Offset.Valid; decide, ?_⟩
    right
    show Listed [_, _] _
    have hd : ∀ c : Char, 48 ≤ c.toNat ∧ c.toNat ≤ 57 → Digits [c] := fun c hc => ⟨by simp, by simpa using hc⟩
    exact ⟨"1".toList, "2".toList, nat_whole ⟨hd '1' (by decide), by decide⟩, nat_whole ⟨hd '2' (by decide), by decide⟩, rfl⟩
  · intro _
    exact ⟨"200".toList, "1".toList, 1, .inl rfl, by decide, by decide, by decide, ⟨⟨by decide, by decide⟩, by decide⟩, fun _ => by decide⟩

theorem spot_sane : Sane spotNode := by
  have plain : ∀ (n : String) (a : Attrs) (ks : List Elem), askedTexts (.mk n a ks) = [] →
      needed.all (fun q => !sameWord n q.1 || decide ((getAttr a q.2).getD [] ≠ [])) = true → SaneNode (.mk n a ks) := by
    intro n a ks h1 h2
    exact sane_node (by rw [h1]; simp) h2
  have one : ∀ (n : String) (a : Attrs) (ks : List Elem) (q : Limit) (s : List Char), askedTexts (.mk n a ks) = [(q, s)] → q.Meets s →
      needed.all (fun q => !sameWord n q.1 || decide ((getAttr a q.2).getD [] ≠ [])) = true → SaneNode (.mk n a ks) := by
    intro n a ks q s h1 h2 h3
    exact sane_node (by rw [h1]; simpa using h2) h3
  refine sane_mk (one _ _ _ .number "12 pixels".toList (by decide +kernel) (nine_short (by decide)) (by decide +kernel)) ?_
  intro k hk
  simp only [List.mem_cons, List.not_mem_nil, or_false] at hk
  rcases hk with rfl | rfl
  · refine sane_mk (plain _ _ _ (by decide +kernel) (by decide +kernel)) ?_
    intro k hk
    rw [List.mem_singleton] at hk
    subst hk
    refine sane_mk (plain _ _ _ (by decide +kernel) (by decide +kernel)) ?_
    intro k hk
    rw [List.mem_singleton] at hk
    subst hk
    exact sane_mk (one _ _ _ .count "640".toList (by decide +kernel) ⟨nine_short (by decide), by decide⟩ (by decide +kernel)) (by simp)
  · refine sane_mk (plain _ _ _ (by decide +kernel) (by decide +kernel)) ?_
    intro k hk
    rw [List.mem_singleton] at hk
    subst hk
    refine sane_mk (plain _ _ _ (by decide +kernel) (by decide +kernel)) ?_
    intro k hk
    rw [List.mem_singleton] at hk
    subst hk
    refine sane_mk (plain _ _ _ (by decide +kernel) (by decide +kernel)) ?_
    intro k hk
    rw [List.mem_singleton] at hk
    rw [hk]
    exact channel_sane

theorem zeros_numbers : Numbers zeros := fun _ _ => by simp [zeros, Good, zero]

/-- The hypotheses are met: reading, resolving and saving this description keeps all its objects. -/
example (F : Fl) : ∃ o, Resolved zeros (fixtureRead F zeros spotNode) o ∧ ∀ p, classAt (fixtureAgain F zeros o) p = classAt o p := by
  obtain ⟨o, ho⟩ := C93_resolved F zeros zeros_numbers spotNode (by decide +kernel) spot_sane
  exact ⟨o, ho, C93_places F zeros zeros_numbers spotNode (by decide +kernel) spot_sane o ho⟩

/-! ### What is asked of the texts is needed -/

/-- **C93, gaps.** The address of a channel with a gap is not saved completely: three bytes become one, two bytes without a first one none. -/
theorem C93_gap_violated (F : Fl) (v : Offset) :
    dec F .offset (some (toTxt "1,0,3".toList)) (.offset v) = .offset ⟨1, 0, 3, 0⟩ ∧
    dec F .offset (some (enc .offset (.offset ⟨1, 0, 3, 0⟩))) (.offset v) = .offset ⟨1, 0, 0, 0⟩ ∧
    dec F .offset (some (toTxt "0,2".toList)) (.offset v) = .offset ⟨0, 2, 0, 0⟩ ∧
    dec F .offset (some (enc .offset (.offset ⟨0, 2, 0, 0⟩))) (.offset v) = .offset ⟨0, 0, 0, 0⟩ := by
  refine ⟨?_, ?_, ?_, ?_⟩
  · show result Val.offset (readOffset (toChars (toTxt "1,0,3".toList))) = _
    rw [show readOffset (toChars (toTxt "1,0,3".toList)) = some ⟨true, false, ⟨1, 0, 3, 0⟩⟩ from by decide +kernel]
    rfl
  · show result Val.offset (readOffset (toChars (toTxt (writeOffset ⟨1, 0, 3, 0⟩)))) = _
    rw [show readOffset (toChars (toTxt (writeOffset ⟨1, 0, 3, 0⟩))) = some ⟨true, false, ⟨1, 0, 0, 0⟩⟩ from by decide +kernel]
    rfl
  · show result Val.offset (readOffset (toChars (toTxt "0,2".toList))) = _
    rw [show readOffset (toChars (toTxt "0,2".toList)) = some ⟨true, false, ⟨0, 2, 0, 0⟩⟩ from by decide +kernel]
    rfl
  · show result Val.offset (readOffset (toChars (toTxt (writeOffset ⟨0, 2, 0, 0⟩)))) = _
    rw [show readOffset (toChars (toTxt (writeOffset ⟨0, 2, 0, 0⟩))) = some ⟨false, false, ⟨0, 0, 0, 0⟩⟩ from by decide +kernel]
    rfl

/-- **C93, negative counts.** A count of -1 is read as the largest number of 64 bits; saved, it is a text that cannot be read: `atoi` is undefined. -/
theorem C93_negative_violated (F : Fl) (i : Int) :
    dec F .int (some (toTxt "-1".toList)) (.int .size i) = .int .size 18446744073709551615 ∧
    dec F .int (some (enc .int (.int .size 18446744073709551615))) (.int .size i) = .undef := by
  constructor
  · show readInt (toChars (toTxt "-1".toList)) .size i = _
    simp only [readInt, readUnsigned]
    rw [if_neg (by decide), show atoi (toChars (toTxt "-1".toList)) = some (-1) from by decide +kernel]
    rfl
  · show readInt (toChars (toTxt (writeInteger 18446744073709551615))) .size i = _
    simp only [readInt, readUnsigned]
    rw [if_neg (by decide +kernel), show atoi (toChars (toTxt (writeInteger 18446744073709551615))) = none from by decide +kernel]
    rfl

/-! ### One physical value -/

/-- A channel set with only one of the two physical values. -/
def halfSet : Elem := .mk "ChannelSet" [("PhysicalFrom", toTxt "5".toList)] []

theorem half_sane : Sane halfSet := by
  apply sane_mk _ (by simp)
  exact sane_node (by rw [show askedTexts _ = [] from by decide +kernel]; simp) (by decide +kernel)

theorem set_class : ∃ c ∈ classes, c.name = "GdtfDmxChannelSet" ∧ nodeFor "GdtfDmxChannelSet" = "ChannelSet" := by decide +kernel

/-- **C93, one physical value.** If only the first physical value of a channel set is given, it is read, but it is not saved: the value is 0 after saving. -/
theorem C93_physical_violated (F : Fl) (m : Memory) (hm : Numbers m) (o : Obj Members)
    (ho : Resolved m (readValues F (ctor m) (madeObj m) "GdtfDmxChannelSet" halfSet) o) :
    ∃ d d', dataAt o [] = some d ∧ dataAt (readValues F (ctor m) (madeObj m) "GdtfDmxChannelSet" (writeValues F (ctor m) (madeObj m) o)) [] = some d' ∧
      Rounded (.real ⟨false, 5⟩) (d "fPhysicalStart") ∧ d' "fPhysicalStart" = .real ⟨false, 0⟩ ∧ ¬ Close (d "fPhysicalStart") (d' "fPhysicalStart") := by
  obtain ⟨c, hc, hn, ht⟩ := set_class
  have hwell := reading_well F m hm halfSet.depth halfSet (Nat.le_refl _) 2 ⟨by decide, by decide⟩ c hc (by rw [hn]; decide)
    (by rw [hn, ht]; decide +kernel) half_sane
  rw [hn, ← reading_eq] at hwell
  have hready := resolved_well hwell o ho
  have hord := ready_ordinary hready
  have hcls : o.cls = "GdtfDmxChannelSet" := by
    rw [resolved_cls ho]
    exact reading_cls F m (madeObj m) 2 "GdtfDmxChannelSet" halfSet
  have hk : Node.kDmxChannelSet ∈ kinds := by decide +kernel
  have hnl : ∀ f, ¬ Later "GdtfDmxChannelSet" f := by
    rintro f ⟨u, hu⟩
    have : ∀ q ∈ Node.Spec.deferred, q.1 ≠ "GdtfDmxChannelSet" := by decide +kernel
    exact this _ hu rfl
  obtain ⟨d, hc1, hd1, hset⟩ := resolved_at [] ho "GdtfDmxChannelSet" (ValuesOf (reading F m (madeObj m) 2 "GdtfDmxChannelSet" halfSet))
    (by rw [reading_eq, reading_parts]; rfl) (by rw [reading_eq, reading_parts]; rfl)
  have hd : ∀ f, d f = valueOf F m (madeObj m) 2 "GdtfDmxChannelSet" halfSet.attrs f := by
    intro f
    rw [hset.same f (hnl f), C92_object]
    rfl
  have hstart : Rounded (.real ⟨false, 5⟩) (d "fPhysicalStart") := by
    rw [hd]
    have hty : typeOf (.real ⟨false, 5⟩) = typeOf (ctor m "GdtfDmxChannelSet" "fPhysicalStart") := by
      rw [ctor_type m zeros]
      decide +kernel
    exact C92_values_partial F m (madeObj m) 2 ⟨by decide, by decide⟩ "GdtfDmxChannelSet" "PhysicalFrom" "fPhysicalStart" "ChannelSet" .float
      ⟨Node.kDmxChannelSet, hk, rfl, ⟨"PhysicalFrom", "fPhysicalStart", .val "ConvertDouble", .always⟩, by decide +kernel, rfl, rfl⟩
      (by decide +kernel) (by decide +kernel) halfSet.attrs (toTxt "5".toList) (by decide +kernel) (.real ⟨false, 5⟩) hty (by simp [Kept, Good])
      ⟨"5".toList, rfl, [], [], "5".toList, [], by simp [Mvr.Spec.Spaces], by simp [Mvr.Spec.Sign], .inl (.inl ⟨⟨by decide, by decide⟩, by
        have : decimal "5".toList = 5 := by decide
        rw [this]; norm_num⟩), by simp [Mvr.Spec.Spaces], rfl⟩ (by simp) (by simp)
  have hflag : d "fSetPhysical" = .flag false := by
    rw [hd]
    unfold valueOf
    rw [show ("GdtfDmxChannelSet" : String) = Node.kDmxChannelSet.name from rfl, schema_dec F (ctor m) (madeObj m) Node.kDmxChannelSet hk]
    unfold after put
    rw [if_neg (by decide), if_pos (show Node.kDmxChannelSet.name = "GdtfDmxChannelSet" from rfl), if_pos rfl]
    rw [show getAttr halfSet.attrs "PhysicalTo" = none from by decide +kernel]
    rfl
  have hback := place_back F (ctor m) (madeObj m) (C85_suitable m) o hord [] Node.kDmxChannelSet hk d hc1 hd1
  rw [hcls] at hback
  refine ⟨d, _, hd1, hback, hstart, ?_⟩
  have hzero : dmxValue F (bytesAt 2 o []) (readBack F (ctor m) Node.kDmxChannelSet (bytesAt 2 o []) d "fPhysicalStart") = .real ⟨false, 0⟩ := by
    have hgone : getAttr (Node.kDmxChannelSet.write (conv F) (cond d) (fun f => dmxText (bytesAt 2 o []) (d f))) "PhysicalFrom" = none := by
      apply getAttr_none
      have : ∀ j ∈ Node.kDmxChannelSet.writes, j.attr = "PhysicalFrom" → j.guard = .on "fSetPhysical" := by decide +kernel
      intro j hj ha
      rw [this j hj ha]
      show cond d "fSetPhysical" = false
      unfold cond
      rw [if_neg (by decide), if_neg (by decide), if_neg (by decide), if_neg (by decide), if_neg (by decide), if_neg (by decide), hflag]
      rfl
    have hv := fits_value F m (madeObj m) (bytesAt 2 o []) Node.kDmxChannelSet hk ⟨"PhysicalFrom", "fPhysicalStart", .val "ConvertDouble", .always⟩
      (by decide +kernel) (by decide) (num 0) (by decide +kernel) _ (.inl hgone) (fun h => absurd h (by decide))
    unfold valueOf at hv
    rw [schema_dec F (ctor m) (madeObj m) Node.kDmxChannelSet hk] at hv
    unfold readBack
    rw [hv]
    rfl
  have hne : ¬ Close (d "fPhysicalStart") (.real ⟨false, 0⟩) := by
    cases hv : d "fPhysicalStart" <;> rw [hv] at hstart <;> first | cases (show Val.real _ = _ from hstart) | skip
    rename_i x
    obtain ⟨h1, h2⟩ := hstart
    intro h
    have h : Near x ⟨false, 0⟩ := h
    unfold Near at h
    have hs : Mvr.signed x = x.mag := by
      unfold Mvr.signed
      rw [← h1]
      rfl
    rw [hs, show Mvr.signed ⟨false, 0⟩ = 0 from rfl, sub_zero, abs_le] at h
    rw [abs_le] at h2
    simp only at h2
    norm_num at h h2
    linarith [h.2, h2.1, h2.2]
  exact ⟨hzero, by rw [hzero]; exact hne⟩

end Verif.Gdtf
