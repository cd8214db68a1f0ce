import Verif.Gdtf.FormatSpec
import Verif.Gdtf.ValueProps

/-!
# Lemmas: the texts of the converters in the notations of the standard
-/

namespace Verif.Gdtf

open Spec
open Verif.Lookup (Txt)
open Verif.Real Verif.Text Verif.Dmx Verif.Enum

/-! ### Numbers -/

theorem digit_code : ∀ d : Fin 10, (Char.ofNat (48 + d.val)).toNat = 48 + d.val := by decide

theorem digit_code' (d : Nat) (h : d < 10) : (Char.ofNat (48 + d)).toNat = 48 + d := digit_code ⟨d, h⟩

theorem decimal_snoc (s : List Char) (d : Nat) (h : d < 10) : decimal (s ++ [Char.ofNat (48 + d)]) = 10 * decimal s + d := by
  unfold decimal
  rw [List.foldl_append, List.foldl_cons, List.foldl_nil, digit_code' d h]
  omega

theorem digits_snoc {s : List Char} (hs : ∀ c ∈ s, 48 ≤ c.toNat ∧ c.toNat ≤ 57) (d : Nat) (h : d < 10) :
    ∀ c ∈ s ++ [Char.ofNat (48 + d)], 48 ≤ c.toNat ∧ c.toNat ≤ 57 := by
  intro c hc
  rcases List.mem_append.1 hc with hc | hc
  · exact hs c hc
  · rw [List.mem_singleton] at hc
    rw [hc, digit_code' d h]
    omega

theorem nat_says (n : Nat) : NatText n (Str.natText n) := by
  induction n using Nat.strongRecOn with
  | ind n ih =>
    rw [Str.natText]
    split
    · rename_i h
      refine ⟨⟨by simp, ?_⟩, ?_⟩
      · exact digits_snoc (s := []) nofun n h
      · have := decimal_snoc [] n h
        rw [List.nil_append] at this
        rw [this]
        show 10 * 0 + n = n
        omega
    · rename_i h
      obtain ⟨⟨h1, h2⟩, h3⟩ := ih (n / 10) (by omega)
      refine ⟨⟨by simp, digits_snoc h2 _ (by omega)⟩, ?_⟩
      rw [decimal_snoc _ _ (by omega), h3]
      omega

theorem int_says (i : Int) : IntText i (Str.intText i) := by
  unfold Str.intText
  split
  · exact Or.inr ⟨i.natAbs, _, nat_says _, rfl, by omega⟩
  · exact Or.inl ⟨i.natAbs, nat_says _, by omega⟩

theorem intNat_says (n : Nat) : NatText n (Str.intText (n : Int)) := by
  unfold Str.intText
  rw [if_neg (by omega)]
  exact nat_says n

theorem decimal_append (a b : List Char) : decimal (a ++ b) = decimal a * 10 ^ b.length + decimal b := by
  have gen : ∀ (b : List Char) (n : Nat), b.foldl (fun n c => 10 * n + (c.toNat - 48)) n = n * 10 ^ b.length + decimal b := by
    intro b
    induction b with
    | nil => intro n; simp [decimal]
    | cons c b ih =>
      intro n
      have e : decimal (c :: b) = (10 * 0 + (c.toNat - 48)) * 10 ^ b.length + decimal b := ih (10 * 0 + (c.toNat - 48))
      rw [e, List.foldl_cons, ih, List.length_cons, Nat.pow_succ]
      grind
  unfold decimal
  rw [List.foldl_append, gen]
  rfl

theorem pad6_says (n : Nat) (h : n < 1000000) : Digits (pad6 n) ∧ decimal (pad6 n) = n ∧ (pad6 n).length = 6 := by
  have e : pad6 n = (((((([] ++ [Char.ofNat (48 + n / 100000 % 10)]) ++ [Char.ofNat (48 + n / 10000 % 10)]) ++
      [Char.ofNat (48 + n / 1000 % 10)]) ++ [Char.ofNat (48 + n / 100 % 10)]) ++ [Char.ofNat (48 + n / 10 % 10)]) ++
      [Char.ofNat (48 + n % 10)]) := rfl
  refine ⟨⟨by simp [pad6], ?_⟩, ?_, rfl⟩
  · rw [e]
    exact digits_snoc (digits_snoc (digits_snoc (digits_snoc (digits_snoc (digits_snoc (s := []) nofun _ (by omega)) _ (by omega)) _
      (by omega)) _ (by omega)) _ (by omega)) _ (by omega)
  · rw [e, decimal_snoc _ _ (by omega), decimal_snoc _ _ (by omega), decimal_snoc _ _ (by omega), decimal_snoc _ _ (by omega),
      decimal_snoc _ _ (by omega), decimal_snoc _ _ (by omega)]
    show 10 * (10 * (10 * (10 * (10 * (10 * 0 + n / 100000 % 10) + n / 10000 % 10) + n / 1000 % 10) + n / 100 % 10) + n / 10 % 10) +
      n % 10 = n
    omega

theorem real_says (x : Dbl) (h : Good x) : RealText x (printReal x) := by
  obtain ⟨p1, p2, p3⟩ := pad6_says (micro x % 1000000) (by omega)
  obtain ⟨q1, q2⟩ := nat_says (micro x / 1000000)
  refine ⟨x.neg, _, _, q1, p1, rfl, ?_⟩
  rw [decimal_append, q2, p2, p3, show micro x / 1000000 * 10 ^ 6 + micro x % 1000000 = micro x by omega]
  have e := micro_err x h
  have e6 : (10 : ℚ) ^ 6 = 1000000 := by norm_num
  rw [e6]
  unfold value
  cases x.neg with
  | false =>
    simp only [Bool.false_eq_true, if_false, one_mul]
    exact e
  | true =>
    simp only [if_true]
    rw [show (-1 : ℚ) * ((micro x : ℚ) / 1000000) - -x.mag = -((micro x : ℚ) / 1000000 - x.mag) by ring, abs_neg]
    exact e

theorem vec_row (v : V3) (h : GoodV v) : Row [RealText v.x, RealText v.y, RealText v.z] (group [printReal v.x, printReal v.y, printReal v.z]) :=
  ⟨_, ⟨_, _, real_says _ h.1, ⟨_, _, real_says _ h.2.1, real_says _ h.2.2, rfl⟩, rfl⟩, rfl⟩

theorem vec_row4 (v : V3) (x : Dbl) (h : GoodV v) (hx : Good x) : Row [RealText v.x, RealText v.y, RealText v.z, RealText x]
    (group [printReal v.x, printReal v.y, printReal v.z, printReal x]) :=
  ⟨_, ⟨_, _, real_says _ h.1, ⟨_, _, real_says _ h.2.1, ⟨_, _, real_says _ h.2.2, real_says _ hx, rfl⟩, rfl⟩, rfl⟩, rfl⟩

theorem last_row : Row [IntText 0, IntText 0, IntText 0, IntText 1] (group ["0".toList, "0".toList, "0".toList, "1".toList]) :=
  ⟨_, ⟨_, _, int_says 0, ⟨_, _, int_says 0, ⟨_, _, int_says 0, int_says 1, rfl⟩, rfl⟩, rfl⟩, by decide +kernel⟩

theorem matrix_says (n : Nat) (m : Mat) (h : Kept n (.matrix m)) : Says n .matrix (.matrix m) (writeMatrixGdtf m) := by
  obtain ⟨h1, h2, h3, h4, h5, h6⟩ := h
  exact ⟨_, _, vec_row4 m.u m.o.x h1 h4, ⟨_, _, vec_row4 m.v m.o.y h2 h5, ⟨_, _, vec_row4 m.w m.o.z h3 h6, ⟨_, _, last_row, rfl, rfl⟩, rfl⟩, rfl⟩, rfl⟩

theorem rotation_says (n : Nat) (m : Mat) (h : Kept n (.rotation m)) : Says n .rotation (.rotation m) (writeRotation m) := by
  obtain ⟨h1, h2, h3⟩ := h
  exact ⟨_, _, vec_row m.u h1, ⟨_, _, vec_row m.v h2, ⟨_, _, vec_row m.w h3, rfl, rfl⟩, rfl⟩, rfl⟩

theorem colors_says (n : Nat) (cs : List V3) (h : Kept n (.colors cs)) : Says n .colors (.colors cs) (writeColors cs) := by
  show Rows (cs.map _) _
  induction cs with
  | nil => exact rfl
  | cons c cs ih =>
    exact ⟨_, _, vec_row c (h c (List.mem_cons_self ..)), ih (fun c hc => h c (List.mem_cons_of_mem _ hc)), rfl⟩

theorem hexChar_says : ∀ d : Fin 16, IsHex (hexChar d.val) ∧ hexDigitValue (hexChar d.val) = d.val := by decide

theorem hexD_says (v : Nat) : (∀ c ∈ hexD v, IsHex c) ∧ hexNumber (hexD v) = v := by
  induction v using Nat.strongRecOn with
  | ind v ih =>
    rw [hexD]
    split
    · rename_i h; subst h; exact ⟨nofun, rfl⟩
    · rename_i h
      obtain ⟨h1, h2⟩ := ih (v / 16) (by omega)
      obtain ⟨h3, h4⟩ := hexChar_says ⟨v % 16, by omega⟩
      refine ⟨?_, ?_⟩
      · intro c hc
        rcases List.mem_append.1 hc with hc | hc
        · exact h1 c hc
        · rw [List.mem_singleton] at hc; rw [hc]; exact h3
      · unfold hexNumber at h2 ⊢
        rw [List.foldl_append, h2, List.foldl_cons, List.foldl_nil, h4]
        show v / 16 * 16 + v % 16 = v
        omega

theorem hex_says (n v : Nat) (h : v ≤ 65535) : Says n .hex (.hex v) (writeHex v) := by
  unfold writeHex
  rw [if_neg (by omega)]
  split
  · rename_i h0
    exact ⟨['0'], by simp, by decide, by rw [h0]; rfl, rfl⟩
  · rename_i h0
    have e := writeHexLoop_eq v v [] (Nat.le_refl v)
    rw [List.append_nil] at e
    refine ⟨hexD v, ?_, (hexD_says v).1, (hexD_says v).2, e⟩
    rw [hexD, dif_neg h0]
    simp

theorem piece_says : ∀ b : BitVec 8, HexByte b (Uuid.getPieceAsText b) := by
  have : ∀ b : Fin 256, (Uuid.getPieceAsText (BitVec.ofFin b)).length = 2 ∧ (∀ c ∈ Uuid.getPieceAsText (BitVec.ofFin b), IsHex c) ∧
      hexNumber (Uuid.getPieceAsText (BitVec.ofFin b)) = b.val := by decide +kernel
  intro b
  exact this b.toFin

theorem guid_says (n : Nat) (u : List Byte) (h : u.length = 16) : Says n .guid (.uuid u) (Uuid.convertToText u) := by
  match u, h with
  | [a, b, c, d, e, f, g, h, i, j, k, l, m, n, o, p], _ =>
    refine ⟨_, _, _, _, _, ⟨_, _, piece_says a, ⟨_, _, piece_says b, ⟨_, _, piece_says c, ⟨_, _, piece_says d, rfl, rfl⟩, rfl⟩, rfl⟩, rfl⟩,
      ⟨_, _, piece_says e, ⟨_, _, piece_says f, rfl, rfl⟩, rfl⟩, ⟨_, _, piece_says g, ⟨_, _, piece_says h, rfl, rfl⟩, rfl⟩,
      ⟨_, _, piece_says i, ⟨_, _, piece_says j, rfl, rfl⟩, rfl⟩,
      ⟨_, _, piece_says k, ⟨_, _, piece_says l, ⟨_, _, piece_says m, ⟨_, _, piece_says n, ⟨_, _, piece_says o, ⟨_, _, piece_says p, rfl, rfl⟩,
        rfl⟩, rfl⟩, rfl⟩, rfl⟩, rfl⟩, ?_⟩
    simp [Uuid.convertToText, Uuid.toText]

theorem offset_says (n : Nat) (o : Offset) : Says n .offset (.offset o) (writeOffset o) := by
  obtain ⟨a, b, c, d⟩ := o
  show Listed _ _
  unfold writeOffset
  simp only [List.takeWhile_cons, List.takeWhile_nil, gt_iff_lt]
  by_cases ha : a = 0
  · subst ha; simp [Listed, writeInts, joinComma]
  by_cases hb : b = 0
  · subst hb
    simp only [ha, ne_eq, not_false_eq_true, decide_true, if_true, Nat.pos_of_ne_zero ha, Nat.lt_irrefl, decide_false, Bool.and_false,
      Bool.false_and, Bool.false_eq_true, if_false, not_true_eq_false]
    have e : writeInts ([(a : Int)] ++ [] ++ [] ++ []) false = Str.intText (a : Int) := by simp [writeInts, joinComma]
    rw [e]
    exact intNat_says a
  by_cases hc : c = 0
  · subst hc
    simp only [ha, hb, ne_eq, not_false_eq_true, decide_true, if_true, Nat.pos_of_ne_zero ha, Nat.pos_of_ne_zero hb, Nat.lt_irrefl, decide_false,
      Bool.and_false, Bool.false_and, Bool.and_true, Bool.false_eq_true, if_false, not_true_eq_false]
    exact ⟨_, _, intNat_says a, intNat_says b, by simp [writeInts, joinComma]⟩
  by_cases hd : d = 0
  · subst hd
    simp only [ha, hb, hc, ne_eq, not_false_eq_true, decide_true, if_true, Nat.pos_of_ne_zero ha, Nat.pos_of_ne_zero hb, Nat.pos_of_ne_zero hc,
      Nat.lt_irrefl, decide_false, Bool.and_false, Bool.and_true, Bool.false_eq_true, if_false, not_true_eq_false]
    exact ⟨_, _, intNat_says a, ⟨_, _, intNat_says b, intNat_says c, rfl⟩, by simp [writeInts, joinComma]⟩
  · simp only [ha, hb, hc, hd, ne_eq, not_false_eq_true, decide_true, if_true, Nat.pos_of_ne_zero ha, Nat.pos_of_ne_zero hb,
      Nat.pos_of_ne_zero hc, Nat.pos_of_ne_zero hd, Bool.and_true]
    exact ⟨_, _, intNat_says a, ⟨_, _, intNat_says b, ⟨_, _, intNat_says c, intNat_says d, rfl⟩, rfl⟩, by simp [writeInts, joinComma]⟩

theorem two_says (n : Nat) : TwoDigits n (twoDigits n) := by
  unfold twoDigits
  obtain ⟨⟨h1, h2⟩, h3⟩ := intNat_says n
  split
  · refine ⟨⟨⟨by simp, ?_⟩, ?_⟩, ?_⟩
    · intro c hc
      rcases List.mem_cons.1 hc with rfl | hc
      · decide
      · exact h2 c hc
    · exact h3
    · rw [List.length_cons]
      have := List.length_pos_iff.2 h1
      omega
  · rename_i h
    refine ⟨⟨⟨h1, h2⟩, h3⟩, ?_⟩
    rw [Str.intText, if_neg (by omega), Str.natText, if_neg (by omega), List.length_append]
    have := List.length_pos_iff.2 (nat_says ((n : Int).natAbs / 10)).1.1
    simp only [List.length_cons, List.length_nil]
    omega

theorem date_says (n : Nat) (t : Time) : Says n .date (.date t) (writeDate t) :=
  ⟨_, _, _, _, _, _, intNat_says _, two_says _, two_says _, two_says _, two_says _, two_says _, rfl⟩

/-! ### All converters -/

/-- The notation of a converter. -/
def formOf : Cv → Form
  | .text => .text
  | .link => .ref
  | .real => .float
  | .int => .int
  | .matrix => .matrix
  | .rotation => .rotation
  | .color => .color
  | .colors => .colors
  | .point => .vec2
  | .vec => .vec3
  | .dmx => .dmx
  | .hex => .hex
  | .uuid => .guid
  | .offset => .offset
  | .brk => .brk
  | .date => .date
  | .address => .address
  | .flag => .bool
  | .primitive => .oneOf primitives
  | .unit => .oneOf units
  | .beam => .oneOf beams
  | .lamp => .oneOf lamps
  | .snap => .oneOf snaps
  | .master => .oneOf masters
  | .relation => .oneOf relations
  | .sample => .oneOf samples
  | .space => .oneOf spaces
  | .interpolation => .oneOf interpolations
  | .laser => .oneOf laserColors
  | .component => .oneOf components
  | .orientation => .oneOf orientations
  | .fuse => .oneOf fuses
  | .truss => .oneOf structures
  | .section_ => .oneOf sections
  | .support => .oneOf supports
  | .subUnit => .oneOf subUnits
  | .canHave => .oneOf answers

theorem spelled (s : List Char) (h : Small s) : Spelled (toTxt s) s := by
  unfold Spelled toTxt
  rw [List.map_map]
  apply List.map_congr_left
  intro c hc
  simp only [Function.comp, BitVec.toNat_ofNat]
  exact Nat.mod_eq_of_lt (h c hc)

theorem tell {n : Nat} {f : Form} {v : Val} {s : List Char} (hs : Small s) (h : Says n f v s) : Tells n f v (toTxt s) := by
  unfold Tells
  split
  · exact absurd h (by simp [Says])
  · exact absurd h (by simp [Says])
  · exact ⟨s, spelled s hs, h⟩

theorem word {words : List String} {i : Nat} {s : List Char} (h : (words[i]?).map (·.toList) = some s) : Word words i s := by
  rw [Option.map_eq_some_iff] at h
  obtain ⟨w, h1, h2⟩ := h
  exact ⟨w, h1, h2.symm⟩

theorem word_primitive (v : PrimitiveType) : Word primitives v.ctorIdx (writePrimitiveType v) := word (by cases v <;> decide +kernel)

theorem word_unit (v : PhysicalUnit) : Word units v.ctorIdx (writePhysicalUnit v) := word (by cases v <;> decide +kernel)

theorem word_beam (v : BeamType) : Word beams v.ctorIdx (writeBeamType v) := word (by cases v <;> decide +kernel)

theorem word_lamp (v : LampType) : Word lamps v.ctorIdx (writeLampType v) := word (by cases v <;> decide +kernel)

theorem word_snap (v : DmxSnap) : Word snaps v.ctorIdx (writeDmxSnap v) := word (by cases v <;> decide +kernel)

theorem word_master (v : DmxMaster) : Word masters v.ctorIdx (writeDmxMaster v) := word (by cases v <;> decide +kernel)

theorem word_relation (v : DmxRelationType) : Word relations v.ctorIdx (writeDmxRelationType v) := word (by cases v <;> decide +kernel)

theorem word_sample (v : ColorSample) : Word samples v.ctorIdx (writeColorSample v) := word (by cases v <;> decide +kernel)

theorem word_space (v : ColorSpace) : Word spaces v.ctorIdx (writeColorSpace v) := word (by cases v <;> decide +kernel)

theorem word_interpolation (v : InterpolationTo) : Word interpolations v.ctorIdx (writeInterpolationTo v) := word (by cases v <;> decide +kernel)

theorem word_laser (v : LaserColorType) : Word laserColors v.ctorIdx (writeLaserColorType v) := word (by cases v <;> decide +kernel)

theorem word_component (v : ComponentType) : Word components v.ctorIdx (writeComponentType v) := word (by cases v <;> decide +kernel)

theorem word_orientation (v : Orientation) : Word orientations v.ctorIdx (writeOrientation v) := word (by cases v <;> decide +kernel)

theorem word_fuse (v : FuseRating) : Word fuses v.ctorIdx (writeFuseRating v) := word (by cases v <;> decide +kernel)

theorem word_truss (v : StructureType) : Word structures v.ctorIdx (writeStructureType v) := word (by cases v <;> decide +kernel)

theorem word_section_ (v : CrossSectionType) : Word sections v.ctorIdx (writeCrossSectionType v) := word (by cases v <;> decide +kernel)

theorem word_support (v : SupportType) : Word supports v.ctorIdx (writeSupportType v) := word (by cases v <;> decide +kernel)

theorem word_subUnit (v : SubPhysicalUnitType) : Word subUnits v.ctorIdx (writeSubPhysicalUnitType v) := word (by cases v <;> decide +kernel)

theorem word_canHave (v : Bool) : Word answers v.toNat (writeCanHaveChildren v) := word (by cases v <;> decide +kernel)

/-- The text of a value is in the notation. -/
theorem value_tells (n : Nat) (cv : Cv) (v : Val) (hs : suits cv v = true) (hl : cv ≠ .link) (hk : Kept n v) :
    Tells n (formOf cv) v (enc cv (dmxText n v)) := by
  cases v with
  | text t => have := cv_of hs rfl; subst this; exact rfl
  | link l => have := cv_of hs rfl; exact absurd this hl
  | real x => have := cv_of hs rfl; subst this; exact tell (small_real x) (real_says x hk)
  | int w i => have := cv_int hs rfl; subst this; exact tell (small_int i) (int_says i)
  | matrix m => have := cv_of hs rfl; subst this; exact tell (small_matrix m) (matrix_says n m hk)
  | rotation m => have := cv_of hs rfl; subst this; exact tell (small_rotation m) (rotation_says n m hk)
  | color c =>
    have := cv_of hs rfl; subst this
    exact tell (small_join (l := [printReal c.x, printReal c.y, printReal c.z]) (small_reals3 _ _ _))
      ⟨_, _, real_says _ hk.1, ⟨_, _, real_says _ hk.2.1, real_says _ hk.2.2, rfl⟩, rfl⟩
  | colors cs => have := cv_of hs rfl; subst this; exact tell (small_colors cs) (colors_says n cs hk)
  | point x y =>
    have := cv_of hs rfl; subst this
    refine tell (small_point x y) ⟨_, _, real_says _ hk.1, real_says _ hk.2, ?_⟩
    simp [writePoint2, writeReals, joinComma]
  | vec v => have := cv_of hs rfl; subst this; exact tell (small_vector v) (vec_row v hk)
  | dmx v =>
    have := cv_dmx hs rfl; subst this
    refine tell (small_dmx v n false) ⟨_, _, nat_says v, nat_says n, ?_⟩
    simp [writeDmx]
  | high v b =>
    have := cv_high hs rfl; subst this
    refine tell (small_dmx v n b) ?_
    cases b with
    | true => exact rfl
    | false =>
      refine ⟨_, _, nat_says v, nat_says n, ?_⟩
      simp [writeDmx]
  | raw t => cases hs
  | rawHigh t => cases hs
  | hex v => have := cv_of hs rfl; subst this; exact tell (small_hex v) (hex_says n v hk)
  | uuid u => have := cv_of hs rfl; subst this; exact tell (small_uuid u) (guid_says n u hk)
  | offset o => have := cv_of hs rfl; subst this; exact tell (small_offset o) (offset_says n o)
  | brk i =>
    have := cv_of hs rfl; subst this
    refine tell (small_break i) ?_
    show if i = 0 then _ else _
    unfold writeBreak
    split
    · rfl
    · exact int_says i
  | date t => have := cv_of hs rfl; subst this; exact tell (small_date t) (date_says n t)
  | address a => have := cv_of hs rfl; subst this; exact tell (small_int a) (intNat_says a)
  | flag b =>
    have := cv_of hs rfl; subst this
    refine tell (small_bool b) ?_
    cases b <;> exact rfl
  | primitive v => have := cv_of hs rfl; subst this; exact tell (small_PrimitiveType v) ⟨rfl, word_primitive v⟩
  | unit v => have := cv_of hs rfl; subst this; exact tell (small_PhysicalUnit v) ⟨rfl, word_unit v⟩
  | beam v => have := cv_of hs rfl; subst this; exact tell (small_BeamType v) ⟨rfl, word_beam v⟩
  | lamp v => have := cv_of hs rfl; subst this; exact tell (small_LampType v) ⟨rfl, word_lamp v⟩
  | snap v => have := cv_of hs rfl; subst this; exact tell (small_DmxSnap v) ⟨rfl, word_snap v⟩
  | master v => have := cv_of hs rfl; subst this; exact tell (small_DmxMaster v) ⟨rfl, word_master v⟩
  | relation v => have := cv_of hs rfl; subst this; exact tell (small_DmxRelationType v) ⟨rfl, word_relation v⟩
  | sample v => have := cv_of hs rfl; subst this; exact tell (small_ColorSample v) ⟨rfl, word_sample v⟩
  | space v => have := cv_of hs rfl; subst this; exact tell (small_ColorSpace v) ⟨rfl, word_space v⟩
  | interpolation v => have := cv_of hs rfl; subst this; exact tell (small_InterpolationTo v) ⟨rfl, word_interpolation v⟩
  | laser v => have := cv_of hs rfl; subst this; exact tell (small_LaserColorType v) ⟨rfl, word_laser v⟩
  | component v => have := cv_of hs rfl; subst this; exact tell (small_ComponentType v) ⟨rfl, word_component v⟩
  | orientation v => have := cv_of hs rfl; subst this; exact tell (small_Orientation v) ⟨rfl, word_orientation v⟩
  | fuse v => have := cv_of hs rfl; subst this; exact tell (small_FuseRating v) ⟨rfl, word_fuse v⟩
  | truss v => have := cv_of hs rfl; subst this; exact tell (small_StructureType v) ⟨rfl, word_truss v⟩
  | section_ v => have := cv_of hs rfl; subst this; exact tell (small_CrossSectionType v) ⟨rfl, word_section_ v⟩
  | support v => have := cv_of hs rfl; subst this; exact tell (small_SupportType v) ⟨rfl, word_support v⟩
  | subUnit v => have := cv_of hs rfl; subst this; exact tell (small_SubPhysicalUnitType v) ⟨rfl, word_subUnit v⟩
  | canHave v => have := cv_of hs rfl; subst this; exact tell (small_CanHaveChildren v) ⟨rfl, word_canHave v⟩
  | undef => exact absurd hk (by simp [Kept])

end Verif.Gdtf
