import Verif.Gdtf.ValueProps

/-!
# C80: members that are left out, names with slashes, and descriptions that meet the hypotheses
-/

namespace Verif.Gdtf

open Spec
open Verif.Lookup (Txt)
open Verif.Real Verif.Text Verif.Dmx Verif.Enum
open Verif.Mvr.Spec (Near NearV)
open Verif.Node (Item Kind kinds getAttr getAttr_write)

/-! ### Members that are left out -/

/-- A statement that is always executed when reading. -/
theorem readNow_mem (F : Fl) (k : Kind) (hk : k ∈ kinds) (node : Attrs) (o : Members) (j : Item) (hj : j ∈ k.reads) (hg : j.guard = .always) :
    readNow F k.reads node o j.field = (conv F).dec j.codec (getAttr node j.attr) (o j.field) := by
  have ht := Node.table_read k hk
  unfold Node.readOk at ht
  rw [Bool.and_eq_true, decide_eq_true_iff] at ht
  obtain ⟨pre, post, hpp⟩ := List.append_of_mem hj
  have := readNow_field F node pre post j o (by rw [← hpp]; exact ht.1) (by rw [hg]; rfl)
  rwa [← hpp] at this

/-- The members of a wheel slot that are written only if they are not zero or empty, with the condition and the converter. -/
def slotItems : List Item := [⟨"MediaFileName", "fGobo", .text, .on "fGobo != \"\""⟩,
  ⟨"Duration", "fDuration", (.val "ConvertDouble"), .on "fDuration != 0.0"⟩,
  ⟨"Width", "fWidth", (.val "ConvertInteger"), .on "fWidth != 0"⟩, ⟨"Height", "fHeight", (.val "ConvertInteger"), .on "fHeight != 0"⟩,
  ⟨"FPS", "fFPS", (.val "ConvertInteger"), .on "fFPS != 0"⟩]

theorem slot_cond (d : Members) : ∀ i ∈ slotItems, i.guard.holds (cond d) = nonzero (d i.field) := by
  intro i hi
  simp only [slotItems, List.mem_cons, List.not_mem_nil, or_false] at hi
  rcases hi with rfl | rfl | rfl | rfl | rfl <;> simp [Node.Guard.holds, cond]

theorem slot_table : ∀ i ∈ slotItems, i ∈ Node.kWheelSlot.writes ∧ i.codec ≠ .ref ∧ i.codec ≠ .blank ∧
    (∀ p ∈ Node.Spec.deferred, p.2.2 ≠ i.field) ∧ (⟨i.attr, i.field, i.codec, .always⟩ : Item) ∈ Node.kWheelSlot.reads ∧
    (∀ j ∈ Node.kWheelSlot.writes, j.attr = i.attr → j.guard = i.guard) ∧ i.field ≠ "fHasColor" ∧ i.field ≠ "fSetPhysical" ∧
    i.field ≠ "fHasLinkedGuid" := by
  decide +kernel

theorem slot_writes (i : Item) (hi : i ∈ slotItems) : Writes "GdtfWheelSlot" i := by
  obtain ⟨h1, h2, h3, h4, -⟩ := slot_table i hi
  exact ⟨Node.kWheelSlot, by decide +kernel, rfl, h1, h2, h3, fun u hu => h4 _ hu rfl⟩

theorem near_zero (x y : Dbl) (hx : x.mag = 0) (hy : y.mag = 0) : Near x y := by
  have h : ∀ z : Dbl, z.mag = 0 → Mvr.signed z = 0 := by
    intro z hz
    unfold Mvr.signed
    rw [hz]
    split <;> simp
  unfold Near
  rw [h x hx, h y hy, hx]
  norm_num

/-- **C80, wheel slots.** The image, the duration, the size and the frame rate of a wheel slot come back, also if they are not written
because they are empty or zero. -/
theorem C80_wheel_slot (F : Fl) (init : String → Members) (fresh : String → Obj Members) (hi : Suitable init)
    (hinit : ∀ i ∈ slotItems, nonzero (init "GdtfWheelSlot" i.field) = false) (o : Obj Members)
    (h : Ordinary init o) (p : List (Nat × Nat)) (d : Members) (hc : classAt o p = some "GdtfWheelSlot") (hd : dataAt o p = some d)
    (f : String) (hf : f ∈ ["fGobo", "fDuration", "fWidth", "fHeight", "fFPS"]) :
    ∃ d', dataAt (readValues F init fresh o.cls (writeValues F init fresh o)) p = some d' ∧ Close (d f) (d' f) := by
  have hex : ∃ i ∈ slotItems, i.field = f := by
    have : ∀ f ∈ ["fGobo", "fDuration", "fWidth", "fHeight", "fFPS"], ∃ i ∈ slotItems, i.field = f := by decide
    exact this f hf
  obtain ⟨i, hm, rfl⟩ := hex
  by_cases hg : i.guard.holds (cond d) = true
  · exact C80_values_partial F init fresh hi o h p _ d hc hd (fun e => absurd e (by decide)) i (slot_writes i hm) hg
  · refine ⟨_, place_back F init fresh hi o h p Node.kWheelSlot (by decide +kernel) d hc hd, ?_⟩
    obtain ⟨h1, h2, h3, h4, h5, h6, h7, h8, h9⟩ := slot_table i hm
    have hnz : nonzero (d i.field) = false := by
      rw [slot_cond d i hm] at hg
      simpa using hg
    have hz := hinit i hm
    have hty := h.typed p _ d hc hd i.field
    unfold readBack
    rw [after_other _ _ _ _ h7 h8 h9 (fun e => absurd e (by decide))]
    have h10 : ∀ s ∈ skips, s.1 = Node.kWheelSlot.name → s.2.2 ≠ i.field := by
      have : ∀ i ∈ slotItems, ∀ s ∈ skips, s.1 = Node.kWheelSlot.name → s.2.2 ≠ i.field := by decide +kernel
      exact this i hm
    rw [unread_other _ _ _ _ _ h10, readNow_mem F Node.kWheelSlot (by decide +kernel) _ _ _ h5 rfl]
    rw [getAttr_none Node.kWheelSlot (conv F) (cond d) _ i.attr (by
      intro j hj ha
      rw [h6 j hj ha]
      simpa using hg)]
    simp only
    rw [show Node.kWheelSlot.name = "GdtfWheelSlot" from rfl]
    have hs := hi "GdtfWheelSlot" i
    generalize d i.field = v at hnz hty ⊢
    have hcv : cvOf i.codec = some .text ∨ cvOf i.codec = some .real ∨ cvOf i.codec = some .int := by
      have : ∀ i ∈ slotItems, cvOf i.codec = some .text ∨ cvOf i.codec = some .real ∨ cvOf i.codec = some .int := by decide +kernel
      exact this i hm
    rcases hcv with hcv | hcv | hcv
    · have hsu := hs .text (slot_writes i hm) hcv
      obtain ⟨a, ha⟩ := is_text (suits_of hsu (by decide) (by decide))
      rw [ha] at hty hz ⊢
      obtain ⟨b, rfl⟩ := is_text hty
      simp only [conv, hcv, dec, dmxValue, Close]
      simp [nonzero] at hz hnz
      rw [hz, hnz]
    · have hsu := hs .real (slot_writes i hm) hcv
      obtain ⟨a, ha⟩ := is_real (suits_of hsu (by decide) (by decide))
      rw [ha] at hty hz ⊢
      obtain ⟨b, rfl⟩ := is_real hty
      simp only [conv, hcv, dec, dmxValue, Option.getD_none, toChars, List.map_nil, if_true, Close]
      simp [nonzero] at hz hnz
      exact near_zero b a hnz hz
    · have hsu := hs .int (slot_writes i hm) hcv
      obtain ⟨w, a, ha⟩ : ∃ w a, init "GdtfWheelSlot" i.field = .int w a := by
        unfold suits at hsu
        split at hsu
        · rename_i c hcc
          rw [beq_iff_eq.1 hsu] at hcc
          generalize init "GdtfWheelSlot" i.field = z at hcc
          cases z <;> cases hcc
        · rename_i w hcc
          obtain ⟨a, ha⟩ := is_int hcc
          exact ⟨w, a, ha⟩
        · cases hsu
        · cases hsu
        · cases hsu
      rw [ha] at hty hz ⊢
      obtain ⟨b, rfl⟩ := is_int hty
      simp [nonzero] at hz hnz
      subst hz hnz
      simp only [conv, hcv, dec, Option.getD_none, toChars, List.map_nil]
      cases w <;> simp [readInt, readSigned, readUnsigned, result, dmxValue, Close]

/-! ### Names with slashes -/

/-- **Violation of C80**: the name of a fixture that contains a slash does not come back, whatever else is in the description. -/
theorem C80_name_violated (F : Fl) (init : String → Members) (fresh : String → Obj Members) (hi : Suitable init) (o : Obj Members)
    (h : Ordinary init o) (p : List (Nat × Nat)) (d : Members) (hc : classAt o p = some "GdtfFixture") (hd : dataAt o p = some d)
    (t : Txt) (ht : d "fName" = .text t) (hs : (47 : BitVec 16) ∈ t) :
    ∃ d', dataAt (readValues F init fresh o.cls (writeValues F init fresh o)) p = some d' ∧
      d' "fName" = .text (t.map (fun u => if u = 47 then 95 else u)) ∧ d' "fName" ≠ d "fName" := by
  refine ⟨_, place_back F init fresh hi o h p Node.kFixture (by decide +kernel) d hc hd, ?_⟩
  have hval : dmxValue F (bytesAt 2 o p) (readBack F init Node.kFixture (bytesAt 2 o p) d "fName") = .text (slashes t) := by
    unfold readBack after put
    rw [if_neg (by decide), if_neg (by decide), if_pos (show Node.kFixture.name = "GdtfFixture" from rfl)]
    simp only [if_true]
    rw [if_neg (by decide)]
    have hr := readNow_mem F Node.kFixture (by decide +kernel) (Node.kFixture.write (conv F) (cond d) fun f => dmxText (bytesAt 2 o p) (d f))
      (init Node.kFixture.name) ⟨"Name", "fName", .text, .always⟩ (by decide +kernel) rfl
    have he := attr_executed F Node.kFixture (by decide +kernel) d (bytesAt 2 o p) (by decide) ⟨"Name", "fName", .text, .always⟩
      (by decide +kernel) rfl (by decide)
    simp only at hr he
    rw [unread_other _ _ _ _ _ (by decide), hr, he, ht]
    rfl
  refine ⟨hval, ?_⟩
  rw [hval, ht]
  intro e
  have he := Val.text.inj e
  have : (47 : BitVec 16) ∈ slashes t := by rw [he]; exact hs
  unfold slashes at this
  obtain ⟨u, -, hu⟩ := List.mem_map.1 this
  split at hu
  · exact absurd hu (by decide)
  · rename_i hne; exact hne hu

/-! ### Descriptions that meet the hypotheses -/

/-- A value of the type that a converter is for. -/
def start : Cv → Val
  | .text => .text []
  | .link => .link none
  | .real => .real ⟨false, 0⟩
  | .int => .int .size 0
  | .matrix => .matrix ⟨⟨⟨false, 1⟩, zero, zero⟩, ⟨zero, ⟨false, 1⟩, zero⟩, ⟨zero, zero, ⟨false, 1⟩⟩, ⟨zero, zero, zero⟩⟩
  | .rotation => .rotation ⟨⟨⟨false, 1⟩, zero, zero⟩, ⟨zero, ⟨false, 1⟩, zero⟩, ⟨zero, zero, ⟨false, 1⟩⟩, ⟨zero, zero, zero⟩⟩
  | .color => .color white
  | .colors => .colors []
  | .point => .point zero zero
  | .vec => .vec ⟨zero, zero, zero⟩
  | .dmx => .dmx 0
  | .hex => .hex 0
  | .uuid => .uuid (List.replicate 16 0)
  | .offset => .offset ⟨0, 0, 0, 0⟩
  | .brk => .brk 1
  | .date => .date ⟨0, 0, 0, 0, 0, 0⟩
  | .address => .address 1
  | .flag => .flag false
  | .primitive => .primitive .cUndefined
  | .unit => .unit .cNone
  | .beam => .beam .cWash
  | .lamp => .lamp .cDischange
  | .snap => .snap .cYes
  | .master => .master .cNone
  | .relation => .relation .cMultiply
  | .sample => .sample .cCES_01
  | .space => .space .csRGB
  | .interpolation => .interpolation .cLinear
  | .laser => .laser .cRGB
  | .component => .component .cInput
  | .orientation => .orientation .cLeft
  | .fuse => .fuse .cB
  | .truss => .truss .cCenterLineBased
  | .section_ => .section_ .cTrussFramework
  | .support => .support .cRope
  | .subUnit => .subUnit .cPlacementOffset
  | .canHave => .canHave false

/-- Members with another type than `start` tells. -/
def special : List ((String × String) × Val) := [
  (("GdtfGeometryLamp", "fColorIndex"), .int .s32 0), (("GdtfBreak", "fDmxBreak"), .int .s32 1),
  (("GdtfDmxChannelSet", "fWheelSlotIdx"), .int .s32 0), (("GdtfConnector", "fGender"), .int .s32 0),
  (("GdtfFixture", "fThumbnailOffsetX"), .int .s32 0), (("GdtfFixture", "fThumbnailOffsetY"), .int .s32 0),
  (("GdtfMap", "fKey"), .int .u32 0), (("GdtfMap", "fValue"), .int .u32 0), (("GdtfConnector", "fDmxBreak"), .int .u32 0),
  (("GdtfCRI", "fCRI"), .int .u8 100), (("GdtfDmxChannel", "fHeighlight+fHeighlightNone"), .high 0 true),
  (("GdtfDmxChannelFunction", "fDmxModeStart"), .raw []), (("GdtfDmxChannelFunction", "fDmxModeEnd"), .raw []),
  (("GdtfMacroDMXValue", "fValue"), .raw []), (("GdtfMacroVisualValue", "fDmxValue"), .raw []),
  (("GdtfAttribute", "fHasColor"), .flag false), (("GdtfDmxChannelSet", "fSetPhysical"), .flag false),
  (("GdtfFixture", "fHasLinkedGuid"), .flag false)]

/-- Members after a constructor. -/
def initial (cls f : String) : Val :=
  match special.find? (fun p => p.1 == (cls, f)) with
  | some p => p.2
  | none => match kinds.find? (fun k => k.name == cls) with
    | some k => match k.writes.find? (fun i => i.field == f) with
      | some i => start ((cvOf i.codec).getD .text)
      | none => .text []
    | none => .text []

theorem initial_suitable : Suitable initial := by
  have h : ∀ k ∈ kinds, ∀ i ∈ k.writes, i.codec ≠ .ref → i.codec ≠ .blank →
      (Node.Spec.deferred.all (fun p => !(p.1 == k.name && p.2.2 == i.field))) = true →
      (match cvOf i.codec with
        | some cv => suits cv (initial k.name i.field)
        | none => true) = true := by
    decide +kernel
  rintro cls i cv ⟨k, hk, rfl, hi, h1, h2, h3⟩ hcv
  have := h k hk i hi h1 h2 (by
    rw [List.all_eq_true]
    rintro ⟨a, b, c⟩ hp
    simp only [Bool.not_eq_true', Bool.and_eq_false_iff]
    by_contra hcon
    rw [not_or] at hcon
    simp only [Bool.not_eq_false, beq_iff_eq] at hcon
    obtain ⟨rfl, rfl⟩ := hcon
    exact h3 b hp)
  rw [hcv] at this
  exact this

/-- Other values for some members. -/
def given (l : List ((String × String) × Val)) (cls f : String) : Val :=
  match l.find? (fun p => p.1 == (cls, f)) with
  | some p => p.2
  | none => initial cls f

theorem start_kept (cv : Cv) : Kept 2 (start cv) := by
  cases cv <;> simp only [start, Kept] <;> try trivial
  · exact ⟨by unfold Good white; norm_num, by unfold Good white; norm_num, by unfold Good white; norm_num⟩
  · exact fun c hc => absurd hc List.not_mem_nil

theorem special_kept : ∀ p ∈ special, Kept 2 p.2 := by
  intro p hp
  simp only [special, List.mem_cons, List.not_mem_nil, or_false] at hp
  rcases hp with rfl | rfl | rfl | rfl | rfl | rfl | rfl | rfl | rfl | rfl | rfl | rfl | rfl | rfl | rfl | rfl | rfl | rfl <;>
    simp [Kept, InType]

theorem initial_kept (cls f : String) : Kept 2 (initial cls f) := by
  unfold initial
  split
  · rename_i p hp
    exact special_kept p (List.mem_of_find?_eq_some hp)
  · split
    · split
      · exact start_kept _
      · trivial
    · trivial

/-- The tree with the members of each object given by its class. -/
def paint (g : String → Members) (o : Obj Members) : Obj Members := change (fun cls _ => g cls) "" o

theorem classes_named : ∀ c ∈ classes, c.name ≠ "" := by decide +kernel

theorem class_at_tree {o : Obj Members} (h : Tree classes o) : ∀ p cls, classAt o p = some cls → cls ≠ "" := by
  induction h with
  | mk c d ks hc hn hf hk ih =>
    intro p cls hcl
    cases p with
    | nil =>
      simp only [classAt, Obj.at, Option.map_some, Obj.cls, Option.some.injEq] at hcl
      rw [← hcl]
      exact classes_named c hc
    | cons ij p =>
      obtain ⟨i, j⟩ := ij
      simp only [classAt, Obj.at] at hcl
      cases hki : ks[i]? with
      | none => rw [hki] at hcl; cases hcl
      | some k =>
        rw [hki, Option.bind_some] at hcl
        cases hkj : k[j]? with
        | none => rw [hkj] at hcl; cases hcl
        | some x =>
          rw [hkj, Option.bind_some] at hcl
          exact ih k (List.mem_of_getElem? hki) x (List.mem_of_getElem? hkj) p cls hcl

theorem no_empty {o : Obj Members} (h : Tree classes o) (q : List (Nat × Nat)) : classAt o q ≠ some "" :=
  fun e => class_at_tree h q "" e rfl

theorem class_paint (g : String → Members) {o : Obj Members} (h : Tree classes o) (p : List (Nat × Nat)) :
    classAt (paint g o) p = classAt o p := by
  unfold classAt paint
  rw [at_change _ _ p o (no_empty h), Option.map_map]
  congr 1
  funext x
  exact change_cls _ _ x

theorem data_paint (g : String → Members) {o : Obj Members} (h : Tree classes o) (p : List (Nat × Nat)) (cls : String) (d : Members)
    (hc : classAt (paint g o) p = some cls) (hd : dataAt (paint g o) p = some d) : d = g cls := by
  unfold classAt paint at hc
  unfold dataAt paint at hd
  rw [at_change _ _ p o (no_empty h)] at hc hd
  cases ha : Obj.at o p with
  | none => rw [ha] at hc; cases hc
  | some x =>
    rw [ha] at hc hd
    cases x with
    | mk c d0 ks =>
      simp only [Option.map_some, change, Obj.cls, Option.some.injEq] at hc hd
      rw [← hc, ← hd]

theorem tree_paint (g : String → Members) (o : Obj Members) (h : Tree classes o) : Tree classes (paint g o) := by
  induction h with
  | mk c d ks hc hn hf hk ih =>
    have hid : ∀ k ∈ ks, changeList (fun cls _ => g cls) "" k = k.map (change (fun cls _ => g cls) "") := by
      intro k hkm
      apply changeList_id
      intro o ho e
      exact class_at_tree (hk k hkm o ho) [] o.cls rfl e
    unfold paint
    rw [change, changeAll_eq]
    have hmap : ks.map (changeList (fun cls _ => g cls) "") = ks.map (fun k => k.map (change (fun cls _ => g cls) "")) :=
      List.map_congr_left hid
    have hmap2 : ∀ x : List (List (Obj Members)), x = ks.map (fun k => k.map (change (fun cls _ => g cls) "")) → Tree classes (.mk c.name (g c.name) x) := by
      rintro x rfl
      refine Tree.mk c _ _ hc (by rw [List.length_map, hn]) ?_ ?_
      · intro p hp
        rw [List.zip_map_right] at hp
        obtain ⟨q, hq, rfl⟩ := List.mem_map.1 hp
        have := hf q hq
        refine ⟨?_, ?_⟩
        · intro o ho
          obtain ⟨x, hx, rfl⟩ := List.mem_map.1 ho
          rw [change_cls]
          exact this.1 x hx
        · have h2 := this.2
          show match q.1.how with | .many => True | .first => _ ≤ 1 | .embedded => _ = 1
          cases hh : q.1.how with
          | many => trivial
          | first => rw [hh] at h2; simpa using h2
          | embedded => rw [hh] at h2; simpa using h2
      · intro k hk' o ho
        obtain ⟨k0, hk0, rfl⟩ := List.mem_map.1 hk'
        obtain ⟨x, hx, rfl⟩ := List.mem_map.1 ho
        exact ih k0 hk0 x hx
    apply hmap2
    exact hmap

theorem bytes_paint (g : String → Members) (h2 : channelBytes (g "GdtfDmxChannel" "fCoarse+fFine+fUltra+fUber") = 2) :
    ∀ (p : List (Nat × Nat)) (o : Obj Members), Tree classes o → bytesAt 2 (paint g o) p = 2 := by
  intro p
  induction p with
  | nil =>
    intro o _
    cases o with
    | mk cls d ks =>
      unfold paint
      rw [change, bytesAt_nil, reso_eq]
      split
      · rename_i e; rw [e]; exact h2
      · rfl
  | cons ij p ih =>
    intro o ho
    obtain ⟨i, j⟩ := ij
    have hat := at_change (fun cls _ => g cls) "" [(i, j)] o (no_empty ho)
    cases ho with
    | mk c d ks hc hn hf hk =>
      have hr : reso 2 c.name (g c.name) = 2 := by
        rw [reso_eq]
        split
        · rename_i e; rw [e]; exact h2
        · rfl
      unfold paint at *
      rw [change] at hat ⊢
      rw [bytesAt_cons]
      rw [hr]
      simp only [Obj.at] at hat
      cases hx : ((changeAll (fun cls _ => g cls) "" ks)[i]?).bind (fun k => k[j]?) with
      | none => rfl
      | some x =>
        rw [hx] at hat
        simp only [Option.bind_some] at hat
        cases hy : (ks[i]?).bind (fun k => k[j]?) with
        | none => rw [hy] at hat; cases hat
        | some y =>
          rw [hy] at hat
          simp only [Option.bind_some, Option.map_some, Option.some.injEq] at hat
          simp only
          rw [hat]
          apply ih y
          cases hki : ks[i]? with
          | none => rw [hki] at hy; cases hy
          | some k =>
            rw [hki, Option.bind_some] at hy
            exact hk k (List.mem_of_getElem? hki) y (List.mem_of_getElem? hy)

/-- Trees of every shape meet the hypotheses, with many values. -/
theorem ordinary_paint (g : String → Members) (h2 : channelBytes (g "GdtfDmxChannel" "fCoarse+fFine+fUltra+fUber") = 2)
    (ht : ∀ cls f, typeOf (g cls f) = typeOf (initial cls f)) (hk : ∀ cls f, Kept 2 (g cls f))
    (hm : ¬ (set? (g "GdtfDmxChannelFunction" "fModeMaster_Channel") = true ∧ set? (g "GdtfDmxChannelFunction" "fModeMaster_Function") = true))
    (o : Obj Members) (ho : Tree classes o) (hp : ∀ q, classAt o q ≠ some "GdtfUserPreset") : Ordinary initial (paint g o) where
  tree := tree_paint g o ho
  noPreset := by intro q; rw [class_paint g ho]; exact hp q
  typed := by
    intro p cls d hc hd f
    rw [data_paint g ho p cls d hc hd]
    exact ht cls f
  kept := by
    intro p cls d hc hd f
    rw [data_paint g ho p cls d hc hd, bytes_paint g h2 p o ho]
    exact hk cls f
  master := by
    intro p d hc hd
    rw [data_paint g ho p _ d hc hd]
    exact hm

/-- Some values: a name, a function that starts at 40000 of 65535, a duration, a flag, a colour. -/
def someValues : List ((String × String) × Val) := [
  (("GdtfFixture", "fName"), .text (toTxt "Spot 1/2".toList)), (("GdtfDmxChannel", "fCoarse+fFine+fUltra+fUber"), .offset ⟨5, 6, 0, 0⟩),
  (("GdtfDmxChannelFunction", "fAdressStart"), .dmx 40000), (("GdtfDmxChannelFunction", "fAttribute"), .link (some (toTxt "Dimmer".toList))),
  (("GdtfWheelSlot", "fDuration"), .real ⟨false, 5 / 2⟩), (("GdtfAttribute", "fHasColor"), .flag true)]

theorem some_type (cls f : String) : typeOf (given someValues cls f) = typeOf (initial cls f) := by
  have h : ∀ p ∈ someValues, typeOf p.2 = typeOf (initial p.1.1 p.1.2) := by decide +kernel
  unfold given
  split
  · rename_i p hp
    have h1 := h p (List.mem_of_find?_eq_some hp)
    have h2 := List.find?_some hp
    rw [beq_iff_eq] at h2
    rw [h2] at h1
    exact h1
  · rfl

theorem some_kept (cls f : String) : Kept 2 (given someValues cls f) := by
  unfold given
  split
  · rename_i p hp
    have h1 := List.mem_of_find?_eq_some hp
    simp only [someValues, List.mem_cons, List.not_mem_nil, or_false] at h1
    rcases h1 with rfl | rfl | rfl | rfl | rfl | rfl <;> simp [Kept, Offset.Valid, Good]
    norm_num
  · exact initial_kept cls f

theorem some_ordinary (o : Obj Members) (ho : Tree classes o) (hp : ∀ q, classAt o q ≠ some "GdtfUserPreset") :
    Ordinary initial (paint (given someValues) o) :=
  ordinary_paint _ (by decide +kernel) some_type some_kept (by decide +kernel) o ho hp

/-- A mode with a channel. -/
def someMode (d : Members) : Obj Members :=
  .mk "GdtfDmxMode" d [[.mk "GdtfDmxChannel" d [[.mk "GdtfDmxLogicalChannel" d [[.mk "GdtfDmxChannelFunction" d [[], []]]]]]], [], []]

theorem tree_mode (d : Members) : Tree classes (someMode d) := by
  have h1 : Tree classes (.mk "GdtfDmxChannelFunction" d [[], []]) := tree_of _ _ _ [[], []] rfl (by decide +kernel) (by simp)
  have h2 : Tree classes (.mk "GdtfDmxLogicalChannel" d [[.mk "GdtfDmxChannelFunction" d [[], []]]]) :=
    tree_of _ _ _ [["GdtfDmxChannelFunction"]] rfl (by decide +kernel) (by simp [h1])
  have h3 : Tree classes (.mk "GdtfDmxChannel" d [[.mk "GdtfDmxLogicalChannel" d [[.mk "GdtfDmxChannelFunction" d [[], []]]]]]) :=
    tree_of _ _ _ [["GdtfDmxLogicalChannel"]] rfl (by decide +kernel) (by simp [h2])
  exact tree_of _ _ _ [["GdtfDmxChannel"], [], []] rfl (by decide +kernel) (by simp [h3])

theorem mode_classes (d : Members) (q : List (Nat × Nat)) : classAt (someMode d) q ≠ some "GdtfUserPreset" := by
  intro e
  have leaf : ∀ (q : List (Nat × Nat)) (i j : Nat), ¬ (classAt (.mk "GdtfDmxChannelFunction" d [[], []]) ((i, j) :: q) = some "GdtfUserPreset") := by
    intro q i j
    rcases i with _ | _ | i <;> simp [classAt, Obj.at]
  have one : ∀ (c : String) (x : Obj Members) (r : List (List (Obj Members))) (hr : ∀ k ∈ r, k = []) (hc : c ≠ "GdtfUserPreset")
      (hx : ∀ q, classAt x q ≠ some "GdtfUserPreset") (q : List (Nat × Nat)), classAt (.mk c d ([x] :: r)) q ≠ some "GdtfUserPreset" := by
    intro c x r hr hc hx q
    cases q with
    | nil => simpa [classAt, Obj.at, Obj.cls] using hc
    | cons ij q =>
      obtain ⟨i, j⟩ := ij
      cases i with
      | zero =>
        cases j with
        | zero => simpa [classAt, Obj.at] using hx q
        | succ j => simp [classAt, Obj.at]
      | succ i =>
        simp only [classAt, Obj.at, List.getElem?_cons_succ]
        cases hk : r[i]? with
        | none => simp
        | some k => rw [hr k (List.mem_of_getElem? hk)]; simp
  refine one "GdtfDmxMode" _ [[], []] (by simp) (by decide) ?_ q e
  intro q
  refine one "GdtfDmxChannel" _ [] (by simp) (by decide) ?_ q
  intro q
  refine one "GdtfDmxLogicalChannel" _ [] (by simp) (by decide) ?_ q
  intro q
  cases q with
  | nil => simp [classAt, Obj.at, Obj.cls]
  | cons ij q => exact leaf q ij.1 ij.2

/-- The start of the function, 40000 in a channel of two bytes, comes back. -/
example (F : Fl) (fresh : String → Obj Members) :
    let o := paint (given someValues) (someMode (fun _ => .undef))
    ∃ d', dataAt (readValues F initial fresh o.cls (writeValues F initial fresh o)) [(0, 0), (0, 0), (0, 0)] = some d' ∧
      d' "fAdressStart" = .dmx 40000 := by
  intro o
  have ho := some_ordinary _ (tree_mode (fun _ => .undef)) (mode_classes _)
  obtain ⟨d', h1, h2⟩ := C80_values_partial F initial fresh initial_suitable o ho [(0, 0), (0, 0), (0, 0)] "GdtfDmxChannelFunction"
    (given someValues "GdtfDmxChannelFunction") rfl rfl (fun e => absurd e (by decide))
    ⟨"DMXFrom", "fAdressStart", (.val "ConvertDMXValue"), .always⟩
    ⟨Node.kDmxChannelFunction, by decide +kernel, rfl, by decide +kernel, by decide, by decide, by
      intro u hu
      have : ∀ p ∈ Node.Spec.deferred, p.2.2 ≠ "fAdressStart" := by decide +kernel
      exact this _ hu rfl⟩ rfl
  refine ⟨d', h1, ?_⟩
  have hv : given someValues "GdtfDmxChannelFunction" "fAdressStart" = .dmx 40000 := by decide +kernel
  simp only [hv] at h2
  exact h2.symm

/-- The attribute of the function. -/
example (F : Fl) (fresh : String → Obj Members) :
    let o := paint (given someValues) (someMode (fun _ => .undef))
    ∃ d' u, dataAt (readValues F initial fresh o.cls (writeValues F initial fresh o)) [(0, 0), (0, 0), (0, 0)] = some d' ∧
      ("GdtfDmxChannelFunction", u, "fAttribute") ∈ Node.Spec.deferred ∧ d' u = .text (toTxt "Dimmer".toList) := by
  intro o
  have ho := some_ordinary _ (tree_mode (fun _ => .undef)) (mode_classes _)
  exact C80_links F initial fresh initial_suitable o ho [(0, 0), (0, 0), (0, 0)] (given someValues "GdtfDmxChannelFunction")
    Node.kDmxChannelFunction (by decide +kernel) rfl rfl ⟨"Attribute", "fAttribute", .ref, .on "fAttribute"⟩ (by decide +kernel)
    ⟨"fUnresolvedAttrRef", by decide +kernel⟩ (by decide +kernel) (toTxt "Dimmer".toList) (Or.inl ⟨rfl, by decide +kernel⟩)

/-- An attribute with a colour. -/
example (F : Fl) (fresh : String → Obj Members) :
    let o := paint (given someValues) (bare "GdtfAttribute" 1 (fun _ => .undef))
    ∃ d', dataAt (readValues F initial fresh o.cls (writeValues F initial fresh o)) [] = some d' ∧ d' "fHasColor" = .flag true := by
  intro o
  have ho := some_ordinary (bare "GdtfAttribute" 1 (fun _ => .undef)) (tree_bare _ _ _ (by decide +kernel)) (by
    intro q
    rcases q with _ | ⟨⟨i, j⟩, q⟩
    · simp [classAt, Obj.at, bare, Obj.cls]
    · rcases i with _ | i <;> simp [classAt, Obj.at, bare])
  exact C80_has_color F initial fresh initial_suitable o ho [] (given someValues "GdtfAttribute") rfl rfl true (by decide +kernel)
    (by decide +kernel)

/-- A wheel slot with a duration and without an image. -/
example (F : Fl) (fresh : String → Obj Members) :
    let o := paint (given someValues) (bare "GdtfWheelSlot" 2 (fun _ => .undef))
    (∃ d', dataAt (readValues F initial fresh o.cls (writeValues F initial fresh o)) [] = some d' ∧ Close (.real ⟨false, 5 / 2⟩) (d' "fDuration")) ∧
    ∃ d', dataAt (readValues F initial fresh o.cls (writeValues F initial fresh o)) [] = some d' ∧ d' "fGobo" = .text [] := by
  intro o
  have ho := some_ordinary (bare "GdtfWheelSlot" 2 (fun _ => .undef)) (tree_bare _ _ _ (by decide +kernel)) (by
    intro q
    rcases q with _ | ⟨⟨i, j⟩, q⟩
    · simp [classAt, Obj.at, bare, Obj.cls]
    · rcases i with _ | _ | i <;> simp [classAt, Obj.at, bare])
  have h := C80_wheel_slot F initial fresh initial_suitable (by decide +kernel) o ho [] (given someValues "GdtfWheelSlot") rfl rfl
  have hv1 : given someValues "GdtfWheelSlot" "fDuration" = .real ⟨false, 5 / 2⟩ := by decide +kernel
  have hv2 : given someValues "GdtfWheelSlot" "fGobo" = .text [] := by decide +kernel
  refine ⟨?_, ?_⟩
  · obtain ⟨d', h1, h2⟩ := h "fDuration" (by decide)
    exact ⟨d', h1, by rwa [hv1] at h2⟩
  · obtain ⟨d', h1, h2⟩ := h "fGobo" (by decide)
    rw [hv2] at h2
    exact ⟨d', h1, h2.symm⟩

theorem sample_classes (d : Members) (q : List (Nat × Nat)) : classAt (sample d [] []) q ≠ some "GdtfUserPreset" := by
  have hc : change (fun _ d => d) "GdtfUserPreset" (sample d [] []) = sample d [] [] := by
    simp [sample, change, changeAll, changeList, bare, Obj.cls]
  have := noDrop_change (fun _ d => d) "GdtfUserPreset" q (sample d [] []) (by simp [sample, Obj.cls])
  rwa [hc] at this

/-- A whole fixture with the name "Spot 1/2": it is called "Spot 1_2" after reading; and it still refers to no other fixture type. -/
example (F : Fl) (fresh : String → Obj Members) :
    let o := paint (given someValues) (sample (fun _ => .undef) [] [])
    (∃ d', dataAt (readValues F initial fresh o.cls (writeValues F initial fresh o)) [] = some d' ∧
      d' "fName" = .text (toTxt "Spot 1_2".toList)) ∧
    ∃ d', dataAt (readValues F initial fresh o.cls (writeValues F initial fresh o)) [] = some d' ∧ d' "fHasLinkedGuid" = .flag false := by
  intro o
  have ho := some_ordinary _ (tree_sample (fun _ => .undef) [] [] (by simp) (by simp)) (sample_classes _)
  refine ⟨?_, C80_linked_fixture F initial fresh initial_suitable o ho [] (given someValues "GdtfFixture") rfl rfl false (by decide +kernel)⟩
  obtain ⟨d', h1, h2, -⟩ := C80_name_violated F initial fresh initial_suitable o ho [] (given someValues "GdtfFixture") rfl rfl
    (toTxt "Spot 1/2".toList) (by decide +kernel) (by decide +kernel)
  exact ⟨d', h1, h2⟩

/-- A channel set without physical values. -/
example (F : Fl) (fresh : String → Obj Members) :
    let o := paint (given someValues) (bare "GdtfDmxChannelSet" 0 (fun _ => .undef))
    ∃ d', dataAt (readValues F initial fresh o.cls (writeValues F initial fresh o)) [] = some d' ∧ d' "fSetPhysical" = .flag false := by
  intro o
  have ho := some_ordinary (bare "GdtfDmxChannelSet" 0 (fun _ => .undef)) (tree_bare _ _ _ (by decide +kernel)) (by
    intro q
    rcases q with _ | ⟨⟨i, j⟩, q⟩ <;> simp [classAt, Obj.at, bare, Obj.cls])
  exact C80_set_physical F initial fresh initial_suitable o ho [] (given someValues "GdtfDmxChannelSet") rfl rfl false (by decide +kernel)

end Verif.Gdtf
