import Verif.Gdtf.ValueSpec
import Verif.Mvr.Values
import Verif.Uuid.Props

/-!
# The values of the objects of a GDTF description, one by one
-/

namespace Verif.Gdtf

open Spec
open Verif.Lookup (Txt)
open Verif.Str Verif.Real Verif.Text Verif.Dmx Verif.Enum
open Verif.Mvr.Spec (Near NearV)
open Verif.Mvr (near_reread)

/-! ### Texts of characters that fit one unit -/

/-- All characters fit one unit of UTF-16. -/
def Small (s : List Char) : Prop := ∀ c ∈ s, c.toNat < 65536

theorem chars_back (s : List Char) (h : Small s) : toChars (toTxt s) = s := by
  induction s with
  | nil => rfl
  | cons c s ih =>
    have h1 := h c (List.mem_cons_self ..)
    have h2 := ih (fun x hx => h x (List.mem_cons_of_mem _ hx))
    unfold toChars toTxt at *
    rw [List.map_cons, List.map_cons, h2, BitVec.toNat_ofNat, Nat.mod_eq_of_lt (by simpa using h1), Char.ofNat_toNat]

theorem toTxt_ne_nil {s : List Char} (h : s ≠ []) : toTxt s ≠ [] := by
  unfold toTxt; simpa using h

theorem small_nil : Small [] := nofun

theorem small_cons {c : Char} {s : List Char} (hc : c.toNat < 65536) (h : Small s) : Small (c :: s) := by
  intro x hx
  rcases List.mem_cons.1 hx with rfl | hx
  · exact hc
  · exact h x hx

theorem small_append {s t : List Char} (hs : Small s) (ht : Small t) : Small (s ++ t) := by
  intro x hx
  rcases List.mem_append.1 hx with hx | hx
  · exact hs x hx
  · exact ht x hx

theorem small_flatten {l : List (List Char)} (h : ∀ s ∈ l, Small s) : Small l.flatten := by
  intro x hx
  obtain ⟨s, hs, hx⟩ := List.mem_flatten.1 hx
  exact h s hs x hx

theorem small_all {s : List Char} (h : s.all (fun c => decide (c.toNat < 65536)) = true) : Small s := by
  intro c hc
  exact of_decide_eq_true (List.all_eq_true.1 h c hc)

theorem small_digit {c : Char} (h : isDigit c = true) : c.toNat < 65536 := by
  unfold isDigit at h
  simp only [Bool.and_eq_true, decide_eq_true_eq, ge_iff_le] at h
  have h2 : c.toNat ≤ '9'.toNat := h.2
  exact Nat.lt_of_le_of_lt h2 (by decide)

theorem small_nat (n : Nat) : Small (natText n) := fun c hc => small_digit (natText_digits n c hc)

theorem small_int (i : Int) : Small (intText i) := by
  unfold intText
  split
  · exact small_cons (by decide) (small_nat _)
  · exact small_nat _

theorem small_real (x : Dbl) : Small (printReal x) := by
  intro c hc
  rcases printReal_chars x c hc with h | rfl | rfl
  · exact small_digit h
  · decide
  · decide

theorem small_join : ∀ {l : List (List Char)}, (∀ s ∈ l, Small s) → Small (joinComma l)
  | [], _ => small_nil
  | [a], h => h a (by simp)
  | a :: b :: t, h => by
    rw [joinComma]
    exact small_append (h a (by simp)) (small_cons (by decide) (small_join (fun s hs => h s (List.mem_cons_of_mem _ hs))))

theorem small_group {l : List (List Char)} (h : ∀ s ∈ l, Small s) : Small (group l) :=
  small_cons (by decide) (small_append (small_join h) (small_all (by decide)))

theorem small_reals3 (x y z : Dbl) : ∀ s ∈ [printReal x, printReal y, printReal z], Small s := by
  intro s hs
  rcases List.mem_cons.1 hs with rfl | hs
  · exact small_real _
  rcases List.mem_cons.1 hs with rfl | hs
  · exact small_real _
  rw [List.mem_singleton.1 hs]
  exact small_real _

theorem small_reals4 (x y z w : Dbl) : ∀ s ∈ [printReal x, printReal y, printReal z, printReal w], Small s := by
  intro s hs
  rcases List.mem_cons.1 hs with rfl | hs
  · exact small_real _
  · exact small_reals3 y z w s hs

theorem small_color (c : V3) : Small (writeColor c) :=
  small_append (small_real _) (small_cons (by decide) (small_append (small_real _) (small_cons (by decide) (small_real _))))

theorem small_colors (cs : List V3) : Small (writeColors cs) := by
  apply small_flatten
  intro s hs
  obtain ⟨c, -, rfl⟩ := List.mem_map.1 hs
  exact small_group (small_reals3 _ _ _)

theorem small_vector (v : V3) : Small (writeVector v) := small_group (small_reals3 _ _ _)

theorem small_matrix (m : Mat) : Small (writeMatrixGdtf m) := by
  apply small_flatten
  intro s hs
  simp only [List.mem_cons, List.not_mem_nil, or_false] at hs
  rcases hs with rfl | rfl | rfl | rfl
  · exact small_group (small_reals4 _ _ _ _)
  · exact small_group (small_reals4 _ _ _ _)
  · exact small_group (small_reals4 _ _ _ _)
  · exact small_all (by decide)

theorem small_rotation (m : Mat) : Small (writeRotation m) := by
  apply small_flatten
  intro s hs
  simp only [List.mem_cons, List.not_mem_nil, or_false] at hs
  rcases hs with rfl | rfl | rfl <;> exact small_group (small_reals3 _ _ _)

theorem small_point (x y : Dbl) : Small (writePoint2 x y) := by
  unfold writePoint2 writeReals
  refine small_append (small_append (small_all (by decide)) (small_join ?_)) (small_all (by decide))
  intro s hs
  obtain ⟨c, -, rfl⟩ := List.mem_map.1 hs
  exact small_real _

theorem small_ints (vs : List Int) : Small (writeInts vs false) := by
  unfold writeInts
  refine small_append (small_append (small_all (by decide)) (small_join ?_)) (small_all (by decide))
  intro s hs
  obtain ⟨c, -, rfl⟩ := List.mem_map.1 hs
  exact small_int _

theorem small_offset (o : Offset) : Small (writeOffset o) := small_ints _

theorem small_break (i : Int) : Small (writeBreak i) := by
  unfold writeBreak
  split
  · exact small_all (by decide)
  · exact small_int _

theorem small_two (n : Nat) : Small (twoDigits n) := by
  unfold twoDigits
  split
  · exact small_cons (by decide) (small_int _)
  · exact small_int _

theorem small_date (t : Time) : Small (writeDate t) :=
  small_append (small_int _) (small_cons (by decide) (small_append (small_two _) (small_cons (by decide) (small_append (small_two _)
    (small_cons (by decide) (small_append (small_two _) (small_cons (by decide) (small_append (small_two _) (small_cons (by decide)
      (small_two _))))))))))

theorem small_hexChar (d : Nat) : (hexChar d).toNat < 65536 := by
  unfold hexChar
  split <;> decide

theorem small_hexLoop : ∀ (fuel v : Nat) (s : List Char), Small s → Small (writeHexLoop fuel v s)
  | 0, _, _, h => h
  | fuel + 1, v, s, h => by
    rw [writeHexLoop]
    split
    · apply small_hexLoop
      unfold Str.insert
      have h1 : Small [hexChar (v % 16)] := small_cons (small_hexChar _) small_nil
      split
      · exact small_append (small_append (fun c hc => h c (List.mem_of_mem_take hc)) h1) (fun c hc => h c (List.mem_of_mem_drop hc))
      · exact small_append h h1
    · exact h

theorem small_hex (v : Nat) : Small (writeHex v) := by
  unfold writeHex
  split
  · exact small_all (by decide)
  split
  · exact small_all (by decide)
  · exact small_hexLoop _ _ _ (small_all (by decide))

theorem small_piece (b : Byte) : Small (Uuid.getPieceAsText b) := by
  have : ∀ b : Byte, (Uuid.getPieceAsText b).all (fun c => decide (c.toNat < 65536)) = true := by decide +kernel
  exact small_all (this b)

theorem small_uuid (u : List Byte) : Small (Uuid.convertToText u) := by
  unfold Uuid.convertToText Uuid.toText
  apply small_flatten
  intro s hs
  simp only [List.mem_cons, List.not_mem_nil, or_false] at hs
  rcases hs with h | h | h | h | h | h | h | h | h | h | h | h | h | h | h | h | h | h | h | h | h | h <;> subst h <;>
    first
      | exact small_piece _
      | exact small_all (by decide)

theorem small_dmx (v n : Nat) (b : Bool) : Small (writeDmx v n b) := by
  unfold writeDmx
  split
  · exact small_all (by decide)
  · exact small_append (small_nat _) (small_cons (by decide) (small_nat _))

theorem small_bool (b : Bool) : Small (writeBool b) := small_all (by cases b <;> decide)

theorem small_PrimitiveType (v : PrimitiveType) : Small (writePrimitiveType v) := small_all (by cases v <;> decide +kernel)

theorem small_PhysicalUnit (v : PhysicalUnit) : Small (writePhysicalUnit v) := small_all (by cases v <;> decide +kernel)

theorem small_BeamType (v : BeamType) : Small (writeBeamType v) := small_all (by cases v <;> decide +kernel)

theorem small_LampType (v : LampType) : Small (writeLampType v) := small_all (by cases v <;> decide +kernel)

theorem small_DmxSnap (v : DmxSnap) : Small (writeDmxSnap v) := small_all (by cases v <;> decide +kernel)

theorem small_DmxMaster (v : DmxMaster) : Small (writeDmxMaster v) := small_all (by cases v <;> decide +kernel)

theorem small_DmxRelationType (v : DmxRelationType) : Small (writeDmxRelationType v) := small_all (by cases v <;> decide +kernel)

theorem small_ColorSample (v : ColorSample) : Small (writeColorSample v) := small_all (by cases v <;> decide +kernel)

theorem small_ColorSpace (v : ColorSpace) : Small (writeColorSpace v) := small_all (by cases v <;> decide +kernel)

theorem small_InterpolationTo (v : InterpolationTo) : Small (writeInterpolationTo v) := small_all (by cases v <;> decide +kernel)

theorem small_LaserColorType (v : LaserColorType) : Small (writeLaserColorType v) := small_all (by cases v <;> decide +kernel)

theorem small_ComponentType (v : ComponentType) : Small (writeComponentType v) := small_all (by cases v <;> decide +kernel)

theorem small_Orientation (v : Orientation) : Small (writeOrientation v) := small_all (by cases v <;> decide +kernel)

theorem small_FuseRating (v : FuseRating) : Small (writeFuseRating v) := small_all (by cases v <;> decide +kernel)

theorem small_StructureType (v : StructureType) : Small (writeStructureType v) := small_all (by cases v <;> decide +kernel)

theorem small_CrossSectionType (v : CrossSectionType) : Small (writeCrossSectionType v) := small_all (by cases v <;> decide +kernel)

theorem small_SupportType (v : SupportType) : Small (writeSupportType v) := small_all (by cases v <;> decide +kernel)

theorem small_SubPhysicalUnitType (v : SubPhysicalUnitType) : Small (writeSubPhysicalUnitType v) := small_all (by cases v <;> decide +kernel)

theorem small_CanHaveChildren (v : Bool) : Small (writeCanHaveChildren v) := small_all (by cases v <;> decide +kernel)

/-! ### Values -/

theorem near3 (F : Fl) (v : V3) (h : GoodV v) : NearV v ⟨reread F v.x, reread F v.y, reread F v.z⟩ :=
  ⟨near_reread F v.x h.1, near_reread F v.y h.2.1, near_reread F v.z h.2.2⟩

theorem near_all (F : Fl) (cs : List V3) (h : ∀ c ∈ cs, GoodV c) :
    ∀ p ∈ cs.zip (cs.map fun c => (⟨reread F c.x, reread F c.y, reread F c.z⟩ : V3)), NearV p.1 p.2 := by
  induction cs with
  | nil => intro p hp; cases hp
  | cons c cs ih =>
    intro p hp
    rw [List.map_cons, List.zip_cons_cons] at hp
    rcases List.mem_cons.1 hp with hp | hp
    · rw [hp]
      exact near3 F c (h c (List.mem_cons_self ..))
    · exact ih (fun c hc => h c (List.mem_cons_of_mem _ hc)) p hp

theorem int_back (w : Width) (i old : Int) (h : InType w i) : readInt (writeInteger i) w old = .int w i := by
  cases w with
  | s32 =>
    have h1 := h.1
    have h2 := h.2
    norm_num at h1 h2
    simp only [readInt, C46_signed i old h1 (by omega), result]
  | u8 =>
    obtain ⟨n, rfl⟩ := Int.eq_ofNat_of_zero_le h.1
    have h2 := h.2
    norm_num at h2
    simp only [readInt, C46_unsigned 8 n old.toNat (by norm_num; omega) (by omega), result]
  | u32 =>
    obtain ⟨n, rfl⟩ := Int.eq_ofNat_of_zero_le h.1
    have h2 := h.2
    norm_num at h2
    simp only [readInt, C46_unsigned 32 n old.toNat (by norm_num; omega) (by omega), result]
  | size =>
    obtain ⟨n, rfl⟩ := Int.eq_ofNat_of_zero_le h.1
    have h2 := h.2
    norm_num at h2
    simp only [readInt, C46_unsigned 64 n old.toNat (by norm_num; omega) (by omega), result]

/-- The value of a member after writing it and reading it, in a channel with `n` bytes. -/
def again (F : Fl) (n : Nat) (cv : Cv) (v init : Val) : Val := dmxValue F n (dec F cv (some (enc cv (dmxText n v))) init)


theorem is_text {v : Val} (h : typeOf v = .of .text) : ∃ x, v = .text x := by cases v <;> first | exact ⟨_, rfl⟩ | cases h

theorem is_real {v : Val} (h : typeOf v = .of .real) : ∃ x, v = .real x := by cases v <;> first | exact ⟨_, rfl⟩ | cases h

theorem is_matrix {v : Val} (h : typeOf v = .of .matrix) : ∃ x, v = .matrix x := by cases v <;> first | exact ⟨_, rfl⟩ | cases h

theorem is_rotation {v : Val} (h : typeOf v = .of .rotation) : ∃ x, v = .rotation x := by cases v <;> first | exact ⟨_, rfl⟩ | cases h

theorem is_color {v : Val} (h : typeOf v = .of .color) : ∃ x, v = .color x := by cases v <;> first | exact ⟨_, rfl⟩ | cases h

theorem is_colors {v : Val} (h : typeOf v = .of .colors) : ∃ x, v = .colors x := by cases v <;> first | exact ⟨_, rfl⟩ | cases h

theorem is_vec {v : Val} (h : typeOf v = .of .vec) : ∃ x, v = .vec x := by cases v <;> first | exact ⟨_, rfl⟩ | cases h

theorem is_hex {v : Val} (h : typeOf v = .of .hex) : ∃ x, v = .hex x := by cases v <;> first | exact ⟨_, rfl⟩ | cases h

theorem is_uuid {v : Val} (h : typeOf v = .of .uuid) : ∃ x, v = .uuid x := by cases v <;> first | exact ⟨_, rfl⟩ | cases h

theorem is_offset {v : Val} (h : typeOf v = .of .offset) : ∃ x, v = .offset x := by cases v <;> first | exact ⟨_, rfl⟩ | cases h

theorem is_brk {v : Val} (h : typeOf v = .of .brk) : ∃ x, v = .brk x := by cases v <;> first | exact ⟨_, rfl⟩ | cases h

theorem is_date {v : Val} (h : typeOf v = .of .date) : ∃ x, v = .date x := by cases v <;> first | exact ⟨_, rfl⟩ | cases h

theorem is_address {v : Val} (h : typeOf v = .of .address) : ∃ x, v = .address x := by cases v <;> first | exact ⟨_, rfl⟩ | cases h

theorem is_flag {v : Val} (h : typeOf v = .of .flag) : ∃ x, v = .flag x := by cases v <;> first | exact ⟨_, rfl⟩ | cases h

theorem is_primitive {v : Val} (h : typeOf v = .of .primitive) : ∃ x, v = .primitive x := by cases v <;> first | exact ⟨_, rfl⟩ | cases h

theorem is_unit {v : Val} (h : typeOf v = .of .unit) : ∃ x, v = .unit x := by cases v <;> first | exact ⟨_, rfl⟩ | cases h

theorem is_beam {v : Val} (h : typeOf v = .of .beam) : ∃ x, v = .beam x := by cases v <;> first | exact ⟨_, rfl⟩ | cases h

theorem is_lamp {v : Val} (h : typeOf v = .of .lamp) : ∃ x, v = .lamp x := by cases v <;> first | exact ⟨_, rfl⟩ | cases h

theorem is_snap {v : Val} (h : typeOf v = .of .snap) : ∃ x, v = .snap x := by cases v <;> first | exact ⟨_, rfl⟩ | cases h

theorem is_master {v : Val} (h : typeOf v = .of .master) : ∃ x, v = .master x := by cases v <;> first | exact ⟨_, rfl⟩ | cases h

theorem is_relation {v : Val} (h : typeOf v = .of .relation) : ∃ x, v = .relation x := by cases v <;> first | exact ⟨_, rfl⟩ | cases h

theorem is_sample {v : Val} (h : typeOf v = .of .sample) : ∃ x, v = .sample x := by cases v <;> first | exact ⟨_, rfl⟩ | cases h

theorem is_space {v : Val} (h : typeOf v = .of .space) : ∃ x, v = .space x := by cases v <;> first | exact ⟨_, rfl⟩ | cases h

theorem is_interpolation {v : Val} (h : typeOf v = .of .interpolation) : ∃ x, v = .interpolation x := by cases v <;> first | exact ⟨_, rfl⟩ | cases h

theorem is_laser {v : Val} (h : typeOf v = .of .laser) : ∃ x, v = .laser x := by cases v <;> first | exact ⟨_, rfl⟩ | cases h

theorem is_component {v : Val} (h : typeOf v = .of .component) : ∃ x, v = .component x := by cases v <;> first | exact ⟨_, rfl⟩ | cases h

theorem is_orientation {v : Val} (h : typeOf v = .of .orientation) : ∃ x, v = .orientation x := by cases v <;> first | exact ⟨_, rfl⟩ | cases h

theorem is_fuse {v : Val} (h : typeOf v = .of .fuse) : ∃ x, v = .fuse x := by cases v <;> first | exact ⟨_, rfl⟩ | cases h

theorem is_truss {v : Val} (h : typeOf v = .of .truss) : ∃ x, v = .truss x := by cases v <;> first | exact ⟨_, rfl⟩ | cases h

theorem is_section_ {v : Val} (h : typeOf v = .of .section_) : ∃ x, v = .section_ x := by cases v <;> first | exact ⟨_, rfl⟩ | cases h

theorem is_support {v : Val} (h : typeOf v = .of .support) : ∃ x, v = .support x := by cases v <;> first | exact ⟨_, rfl⟩ | cases h

theorem is_subUnit {v : Val} (h : typeOf v = .of .subUnit) : ∃ x, v = .subUnit x := by cases v <;> first | exact ⟨_, rfl⟩ | cases h

theorem is_canHave {v : Val} (h : typeOf v = .of .canHave) : ∃ x, v = .canHave x := by cases v <;> first | exact ⟨_, rfl⟩ | cases h

theorem is_point {v : Val} (h : typeOf v = .of .point) : ∃ x y, v = .point x y := by cases v <;> first | exact ⟨_, _, rfl⟩ | cases h

theorem is_int {v : Val} {w : Width} (h : typeOf v = .int w) : ∃ i, v = .int w i := by
  cases v <;> first | (cases h; exact ⟨_, rfl⟩) | cases h

theorem is_dmx {v : Val} (h : typeOf v = .dmx) : ∃ x, v = .dmx x := by cases v <;> first | exact ⟨_, rfl⟩ | cases h

theorem is_high {v : Val} (h : typeOf v = .dmxOrNone) : ∃ x b, v = .high x b := by cases v <;> first | exact ⟨_, _, rfl⟩ | cases h

theorem cv_of {cv c : Cv} {v : Val} (hs : suits cv v = true) (ht : typeOf v = .of c) : cv = c := by
  unfold suits at hs
  rw [ht] at hs
  exact (beq_iff_eq.1 hs).symm

theorem cv_int {cv : Cv} {v : Val} {w : Width} (hs : suits cv v = true) (ht : typeOf v = .int w) : cv = .int := by
  unfold suits at hs
  rw [ht] at hs
  exact beq_iff_eq.1 hs

theorem cv_dmx {cv : Cv} {v : Val} (hs : suits cv v = true) (ht : typeOf v = .dmx) : cv = .dmx := by
  unfold suits at hs
  rw [ht] at hs
  exact beq_iff_eq.1 hs

theorem cv_high {cv : Cv} {v : Val} (hs : suits cv v = true) (ht : typeOf v = .dmxOrNone) : cv = .dmx := by
  unfold suits at hs
  rw [ht] at hs
  exact beq_iff_eq.1 hs

theorem enum_primitive (F : Fl) (n : Nat) (v old : PrimitiveType) : again F n .primitive (.primitive v) (.primitive old) = .primitive v := by
  simp only [again, dmxText, enc, dec, Option.getD_some, chars_back _ (small_PrimitiveType v), C18_PrimitiveType.roundtrip v (writePrimitiveType v) old rfl, dmxValue]

theorem enum_unit (F : Fl) (n : Nat) (v old : PhysicalUnit) : again F n .unit (.unit v) (.unit old) = .unit v := by
  simp only [again, dmxText, enc, dec, Option.getD_some, chars_back _ (small_PhysicalUnit v), C18_PhysicalUnit.roundtrip v (writePhysicalUnit v) old rfl, dmxValue]

theorem enum_beam (F : Fl) (n : Nat) (v old : BeamType) : again F n .beam (.beam v) (.beam old) = .beam v := by
  simp only [again, dmxText, enc, dec, Option.getD_some, chars_back _ (small_BeamType v), C18_BeamType.roundtrip v (writeBeamType v) old rfl, dmxValue]

theorem enum_lamp (F : Fl) (n : Nat) (v old : LampType) : again F n .lamp (.lamp v) (.lamp old) = .lamp v := by
  simp only [again, dmxText, enc, dec, Option.getD_some, chars_back _ (small_LampType v), C18_LampType.roundtrip v (writeLampType v) old rfl, dmxValue]

theorem enum_snap (F : Fl) (n : Nat) (v old : DmxSnap) : again F n .snap (.snap v) (.snap old) = .snap v := by
  simp only [again, dmxText, enc, dec, Option.getD_some, chars_back _ (small_DmxSnap v), C18_DmxSnap.roundtrip v (writeDmxSnap v) old rfl, dmxValue]

theorem enum_master (F : Fl) (n : Nat) (v old : DmxMaster) : again F n .master (.master v) (.master old) = .master v := by
  simp only [again, dmxText, enc, dec, Option.getD_some, chars_back _ (small_DmxMaster v), C18_DmxMaster.roundtrip v (writeDmxMaster v) old rfl, dmxValue]

theorem enum_relation (F : Fl) (n : Nat) (v old : DmxRelationType) : again F n .relation (.relation v) (.relation old) = .relation v := by
  simp only [again, dmxText, enc, dec, Option.getD_some, chars_back _ (small_DmxRelationType v), C18_DmxRelationType.roundtrip v (writeDmxRelationType v) old rfl, dmxValue]

theorem enum_sample (F : Fl) (n : Nat) (v old : ColorSample) : again F n .sample (.sample v) (.sample old) = .sample v := by
  simp only [again, dmxText, enc, dec, Option.getD_some, chars_back _ (small_ColorSample v), C18_ColorSample.roundtrip v (writeColorSample v) old rfl, dmxValue]

theorem enum_space (F : Fl) (n : Nat) (v old : ColorSpace) : again F n .space (.space v) (.space old) = .space v := by
  simp only [again, dmxText, enc, dec, Option.getD_some, chars_back _ (small_ColorSpace v), C18_ColorSpace.roundtrip v (writeColorSpace v) old rfl, dmxValue]

theorem enum_interpolation (F : Fl) (n : Nat) (v old : InterpolationTo) : again F n .interpolation (.interpolation v) (.interpolation old) = .interpolation v := by
  simp only [again, dmxText, enc, dec, Option.getD_some, chars_back _ (small_InterpolationTo v), C18_InterpolationTo.roundtrip v (writeInterpolationTo v) old rfl, dmxValue]

theorem enum_laser (F : Fl) (n : Nat) (v old : LaserColorType) : again F n .laser (.laser v) (.laser old) = .laser v := by
  simp only [again, dmxText, enc, dec, Option.getD_some, chars_back _ (small_LaserColorType v), C18_LaserColorType.roundtrip v (writeLaserColorType v) old rfl, dmxValue]

theorem enum_component (F : Fl) (n : Nat) (v old : ComponentType) : again F n .component (.component v) (.component old) = .component v := by
  simp only [again, dmxText, enc, dec, Option.getD_some, chars_back _ (small_ComponentType v), C18_ComponentType.roundtrip v (writeComponentType v) old rfl, dmxValue]

theorem enum_orientation (F : Fl) (n : Nat) (v old : Orientation) : again F n .orientation (.orientation v) (.orientation old) = .orientation v := by
  simp only [again, dmxText, enc, dec, Option.getD_some, chars_back _ (small_Orientation v), C18_Orientation.roundtrip v (writeOrientation v) old rfl, dmxValue]

theorem enum_fuse (F : Fl) (n : Nat) (v old : FuseRating) : again F n .fuse (.fuse v) (.fuse old) = .fuse v := by
  simp only [again, dmxText, enc, dec, Option.getD_some, chars_back _ (small_FuseRating v), C18_FuseRating.roundtrip v (writeFuseRating v) old rfl, dmxValue]

theorem enum_truss (F : Fl) (n : Nat) (v old : StructureType) : again F n .truss (.truss v) (.truss old) = .truss v := by
  simp only [again, dmxText, enc, dec, Option.getD_some, chars_back _ (small_StructureType v), C18_StructureType.roundtrip v (writeStructureType v) old rfl, dmxValue]

theorem enum_section_ (F : Fl) (n : Nat) (v old : CrossSectionType) : again F n .section_ (.section_ v) (.section_ old) = .section_ v := by
  simp only [again, dmxText, enc, dec, Option.getD_some, chars_back _ (small_CrossSectionType v), C18_CrossSectionType.roundtrip v (writeCrossSectionType v) old rfl, dmxValue]

theorem enum_support (F : Fl) (n : Nat) (v old : SupportType) : again F n .support (.support v) (.support old) = .support v := by
  simp only [again, dmxText, enc, dec, Option.getD_some, chars_back _ (small_SupportType v), C18_SupportType.roundtrip v (writeSupportType v) old rfl, dmxValue]

theorem enum_subUnit (F : Fl) (n : Nat) (v old : SubPhysicalUnitType) : again F n .subUnit (.subUnit v) (.subUnit old) = .subUnit v := by
  simp only [again, dmxText, enc, dec, Option.getD_some, chars_back _ (small_SubPhysicalUnitType v), C18_SubPhysicalUnitType.roundtrip v (writeSubPhysicalUnitType v) old rfl, dmxValue]

theorem enum_canHave (F : Fl) (n : Nat) (v old : Bool) : again F n .canHave (.canHave v) (.canHave old) = .canHave v := by
  simp only [again, dmxText, enc, dec, Option.getD_some, chars_back _ (small_CanHaveChildren v), C18_CanHaveChildren.roundtrip v (writeCanHaveChildren v) old rfl, dmxValue]

theorem value_back (F : Fl) (n : Nat) (hn : IsReso n) (cv : Cv) (v init : Val) (hs : suits cv init = true) (ht : typeOf v = typeOf init)
    (hl : cv ≠ .link) (hk : Kept n v) : Close v (again F n cv v init) := by
  cases v
  case link l => exact absurd (cv_of hs ht.symm) hl
  case raw t => unfold suits at hs; rw [← ht] at hs; cases hs
  case rawHigh t => exact hk.elim
  case undef => exact hk.elim
  case text t =>
    cases cv_of hs ht.symm
    exact rfl
  case real x =>
    cases cv_of hs ht.symm
    obtain ⟨y, rfl⟩ := is_real ht.symm
    simp only [again, dmxText, enc, dec, Option.getD_some, chars_back _ (small_real x), if_neg (printReal_ne_nil x), dmxValue]
    exact near_reread F x hk
  case int w i =>
    cases cv_int hs ht.symm
    obtain ⟨j, rfl⟩ := is_int ht.symm
    have h1 : Small (writeInteger i) := small_int i
    simp only [again, dmxText, enc, dec, Option.getD_some, chars_back _ h1, int_back _ _ _ hk, dmxValue]
    exact rfl
  case matrix m =>
    cases cv_of hs ht.symm
    obtain ⟨y, rfl⟩ := is_matrix ht.symm
    simp only [again, dmxText, enc, dec, Option.getD_some, chars_back _ (small_matrix m), C19_gdtf, result, dmxValue]
    exact ⟨near3 F _ hk.1, near3 F _ hk.2.1, near3 F _ hk.2.2.1, near3 F _ hk.2.2.2⟩
  case rotation m =>
    cases cv_of hs ht.symm
    obtain ⟨y, rfl⟩ := is_rotation ht.symm
    simp only [again, dmxText, enc, dec, Option.getD_some, chars_back _ (small_rotation m), C19_rotation, result, dmxValue]
    exact ⟨near3 F _ hk.1, near3 F _ hk.2.1, near3 F _ hk.2.2⟩
  case color c =>
    cases cv_of hs ht.symm
    obtain ⟨y, rfl⟩ := is_color ht.symm
    simp only [again, dmxText, enc, dec, Option.getD_some, chars_back _ (small_color c), C47_color, result, dmxValue]
    exact near3 F _ hk
  case colors cs =>
    cases cv_of hs ht.symm
    obtain ⟨y, rfl⟩ := is_colors ht.symm
    simp only [again, dmxText, enc, dec, Option.getD_some, chars_back _ (small_colors cs), C47_colors, result, dmxValue]
    exact ⟨(List.length_map ..).symm, near_all F cs hk⟩
  case point x y =>
    cases cv_of hs ht.symm
    obtain ⟨_, _, rfl⟩ := is_point ht.symm
    simp only [again, dmxText, enc, dec, Option.getD_some, chars_back _ (small_point x y), C47_point2, result, dmxValue]
    exact ⟨near_reread F x hk.1, near_reread F y hk.2⟩
  case vec w =>
    cases cv_of hs ht.symm
    obtain ⟨y, rfl⟩ := is_vec ht.symm
    simp only [again, dmxText, enc, dec, Option.getD_some, chars_back _ (small_vector w), C47_vector, result, dmxValue]
    exact near3 F _ hk
  case dmx x =>
    cases cv_dmx hs ht.symm
    obtain ⟨y, rfl⟩ := is_dmx ht.symm
    simp only [again, dmxText, enc, dec, Option.getD_some, dmxValue, chars_back _ (small_dmx x n _), C11_roundtrip F n x 0 hn hk, result]
    exact rfl
  case high x b =>
    cases cv_high hs ht.symm
    obtain ⟨y, b', rfl⟩ := is_high ht.symm
    simp only [again, dmxText, enc, dec, Option.getD_some, dmxValue, chars_back _ (small_dmx x n _)]
    cases b with
    | true =>
      rw [show writeDmx x n true = writeDmx 0 n true from rfl, (C11_none F n 0 0 hn (Nat.zero_le _)).1]
      exact rfl
    | false =>
      have hk : x ≤ 256 ^ n - 1 := hk.resolve_left (by decide)
      rw [(C11_none F n x 0 hn hk).2]
      exact rfl
  case hex x =>
    cases cv_of hs ht.symm
    obtain ⟨y, rfl⟩ := is_hex ht.symm
    simp only [again, dmxText, enc, dec, Option.getD_some, chars_back _ (small_hex x), C17_roundtrip x hk, dmxValue]
    exact rfl
  case uuid u =>
    cases cv_of hs ht.symm
    obtain ⟨y, rfl⟩ := is_uuid ht.symm
    simp only [again, dmxText, enc, dec, Option.getD_some, chars_back _ (small_uuid u), Uuid.C09_converter u y hk, dmxValue]
    exact rfl
  case offset x =>
    cases cv_of hs ht.symm
    obtain ⟨y, rfl⟩ := is_offset ht.symm
    simp only [again, dmxText, enc, dec, Option.getD_some, chars_back _ (small_offset x), C15_roundtrip x hk, result, dmxValue]
    exact rfl
  case brk i =>
    cases cv_of hs ht.symm
    obtain ⟨y, rfl⟩ := is_brk ht.symm
    have h1 := hk.1
    have h2 := hk.2
    norm_num at h1 h2
    simp only [again, dmxText, enc, dec, Option.getD_some, chars_back _ (small_break i), C46_break i y h1 (by omega), result, dmxValue]
    exact rfl
  case date t =>
    cases cv_of hs ht.symm
    obtain ⟨y, rfl⟩ := is_date ht.symm
    simp only [again, dmxText, enc, dec, Option.getD_some, chars_back _ (small_date t), C16_roundtrip t hk, result, dmxValue]
    exact rfl
  case address a =>
    cases cv_of hs ht.symm
    obtain ⟨y, rfl⟩ := is_address ht.symm
    have h1 : Small (writeAddress a) := small_int a
    simp only [again, dmxText, enc, dec, Option.getD_some, chars_back _ h1, C13_roundtrip a hk.1 hk.2, result, dmxValue]
    exact rfl
  case flag b =>
    cases cv_of hs ht.symm
    obtain ⟨y, rfl⟩ := is_flag ht.symm
    simp only [again, dmxText, enc, dec, Option.getD_some, chars_back _ (small_bool b), (C18_bool b []).1, dmxValue]
    exact rfl
  case primitive x =>
    cases cv_of hs ht.symm
    obtain ⟨y, rfl⟩ := is_primitive ht.symm
    rw [enum_primitive]
    exact rfl
  case unit x =>
    cases cv_of hs ht.symm
    obtain ⟨y, rfl⟩ := is_unit ht.symm
    rw [enum_unit]
    exact rfl
  case beam x =>
    cases cv_of hs ht.symm
    obtain ⟨y, rfl⟩ := is_beam ht.symm
    rw [enum_beam]
    exact rfl
  case lamp x =>
    cases cv_of hs ht.symm
    obtain ⟨y, rfl⟩ := is_lamp ht.symm
    rw [enum_lamp]
    exact rfl
  case snap x =>
    cases cv_of hs ht.symm
    obtain ⟨y, rfl⟩ := is_snap ht.symm
    rw [enum_snap]
    exact rfl
  case master x =>
    cases cv_of hs ht.symm
    obtain ⟨y, rfl⟩ := is_master ht.symm
    rw [enum_master]
    exact rfl
  case relation x =>
    cases cv_of hs ht.symm
    obtain ⟨y, rfl⟩ := is_relation ht.symm
    rw [enum_relation]
    exact rfl
  case sample x =>
    cases cv_of hs ht.symm
    obtain ⟨y, rfl⟩ := is_sample ht.symm
    rw [enum_sample]
    exact rfl
  case space x =>
    cases cv_of hs ht.symm
    obtain ⟨y, rfl⟩ := is_space ht.symm
    rw [enum_space]
    exact rfl
  case interpolation x =>
    cases cv_of hs ht.symm
    obtain ⟨y, rfl⟩ := is_interpolation ht.symm
    rw [enum_interpolation]
    exact rfl
  case laser x =>
    cases cv_of hs ht.symm
    obtain ⟨y, rfl⟩ := is_laser ht.symm
    rw [enum_laser]
    exact rfl
  case component x =>
    cases cv_of hs ht.symm
    obtain ⟨y, rfl⟩ := is_component ht.symm
    rw [enum_component]
    exact rfl
  case orientation x =>
    cases cv_of hs ht.symm
    obtain ⟨y, rfl⟩ := is_orientation ht.symm
    rw [enum_orientation]
    exact rfl
  case fuse x =>
    cases cv_of hs ht.symm
    obtain ⟨y, rfl⟩ := is_fuse ht.symm
    rw [enum_fuse]
    exact rfl
  case truss x =>
    cases cv_of hs ht.symm
    obtain ⟨y, rfl⟩ := is_truss ht.symm
    rw [enum_truss]
    exact rfl
  case section_ x =>
    cases cv_of hs ht.symm
    obtain ⟨y, rfl⟩ := is_section_ ht.symm
    rw [enum_section_]
    exact rfl
  case support x =>
    cases cv_of hs ht.symm
    obtain ⟨y, rfl⟩ := is_support ht.symm
    rw [enum_support]
    exact rfl
  case subUnit x =>
    cases cv_of hs ht.symm
    obtain ⟨y, rfl⟩ := is_subUnit ht.symm
    rw [enum_subUnit]
    exact rfl
  case canHave x =>
    cases cv_of hs ht.symm
    obtain ⟨y, rfl⟩ := is_canHave ht.symm
    rw [enum_canHave]
    exact rfl

end Verif.Gdtf
