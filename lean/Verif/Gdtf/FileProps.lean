import Verif.Gdtf.FileText
import Verif.Gdtf.ValueMore
import Verif.Pack.GdtfProps
import Verif.Xml.Cut
import Verif.Str.Props

/-!
# C81: the text of a GDTF description comes back; what is reported after reading
-/

namespace Verif.Gdtf

open Spec
open Verif.Lookup (Txt)
open Verif.Dmx Verif.UnicodeSpec
open Verif.Node (Item Kind kinds)

/-! ### The version -/

theorem decimal_digits {s : List Nat} {n : Nat} (h : Decimal s n) : s ≠ [] ∧ ∀ c ∈ s, 48 ≤ c ∧ c ≤ 57 := by
  induction h with
  | one d hd => exact ⟨by simp, by simp; omega⟩
  | more s n d _ hd ih =>
    refine ⟨by simp, ?_⟩
    intro c hc
    rcases List.mem_append.1 hc with hc | hc
    · exact ih.2 c hc
    · simp at hc; omega

theorem decimal_fold {s : List Nat} {n : Nat} (h : Decimal s n) : s.foldl (fun n c => n * 10 + (c - 48)) 0 = n := by
  induction h with
  | one d hd => simp
  | more s n d _ hd ih => rw [List.foldl_append, ih]; simp

theorem takeWhile_id {p : Nat → Bool} : ∀ {s : List Nat}, (∀ c ∈ s, p c = true) → s.takeWhile p = s
  | [], _ => rfl
  | c :: s, h => by
    rw [List.takeWhile_cons, if_pos (h c (by simp)), takeWhile_id (fun x hx => h x (by simp [hx]))]

theorem stoi_decimal {s : List Nat} {n : Nat} (h : Decimal s n) (hn : n < 2 ^ 31) : stoi s = some (n : Int) := by
  obtain ⟨h0, h1⟩ := decimal_digits h
  obtain ⟨c, t, rfl⟩ := List.exists_cons_of_ne_nil h0
  have hc := h1 c (by simp)
  have hd : (c :: t).dropWhile (fun c => (decide (9 ≤ c) && decide (c ≤ 13)) || c == 32) = c :: t := by
    rw [List.dropWhile_cons, if_neg]
    simp
    omega
  have ht : (c :: t).takeWhile (fun c => decide (48 ≤ c) && decide (c ≤ 57)) = c :: t := by
    apply takeWhile_id
    intro x hx
    have := h1 x hx
    simp [this]
  unfold stoi
  simp only [hd]
  split
  · rename_i e; injection e with e _; omega
  · rename_i e; injection e with e _; omega
  · simp only [ht, decimal_fold h]
    rw [if_neg (by simp)]
    simp only [Bool.false_eq_true, if_false]
    rw [if_pos (by omega)]

theorem points_small : ∀ {s : List Nat}, (∀ c ∈ s, c < 0xD800) → points (s.map (BitVec.ofNat 16)) = some s
  | [], _ => rfl
  | c :: s, h => by
    have hc := h c (by simp)
    have e : utf16 c = [BitVec.ofNat 16 c] := by unfold utf16; rw [if_pos (by omega)]
    have := points_cons c ⟨by omega, by omega⟩ (s.map (BitVec.ofNat 16))
    rw [e] at this
    rw [List.map_cons]
    rw [show BitVec.ofNat 16 c :: s.map (BitVec.ofNat 16) = [BitVec.ofNat 16 c] ++ s.map (BitVec.ofNat 16) from rfl, this,
      points_small (fun x hx => h x (by simp [hx]))]
    rfl

theorem findAt_one (x : BitVec 16) : ∀ (a b : Txt), x ∉ a → Str.find (a ++ x :: b) [x] = some a.length
  | a, b, h => by
    have key : ∀ a : Txt, x ∉ a → Str.findAt [x] (a ++ x :: b) = some a.length := by
      intro a
      induction a with
      | nil => intro _; simp [Str.findAt, List.isPrefixOf]
      | cons c a ih =>
        intro h
        rw [List.mem_cons, not_or] at h
        rw [List.cons_append, Str.findAt, if_neg (by simp [List.isPrefixOf, h.1]), ih h.2]
        rfl
    unfold Str.find Str.stdFind
    rw [if_neg (by simp), if_pos (Nat.zero_le _), List.drop_zero, key a h]
    rfl

theorem version_text {t : Txt} {major minor : Nat} (h : VersionText t major minor) (h1 : major < 2 ^ 31) (h2 : minor < 2 ^ 31) :
    versionOf t = ((major : Int), (minor : Int)) := by
  obtain ⟨a, b, ha, hb, rfl⟩ := h
  have da := (decimal_digits ha).2
  have db := (decimal_digits hb).2
  have small : ∀ c, c < 0xD800 → (BitVec.ofNat 16 c).toNat = c := by
    intro c hc; rw [BitVec.toNat_ofNat]; exact Nat.mod_eq_of_lt (by omega)
  have hno : (46 : BitVec 16) ∉ a.map (BitVec.ofNat 16) := by
    intro hm
    obtain ⟨c, hc, e⟩ := List.mem_map.1 hm
    have := congrArg BitVec.toNat e
    have hcd := da c hc
    rw [small c (by omega)] at this
    have h46 : (46 : BitVec 16).toNat = 46 := rfl
    omega
  have hsur : Str.NoSurrogate ((a ++ 46 :: b).map (BitVec.ofNat 16)) := by
    intro u hu
    obtain ⟨c, hc, rfl⟩ := List.mem_map.1 hu
    have hc : c < 0xD800 := by
      rcases List.mem_append.1 hc with hc | hc
      · have := da c hc; omega
      · rcases List.mem_cons.1 hc with rfl | hc
        · omega
        · have := db c hc; omega
    have := small c hc
    unfold Str.isLow Str.isHigh
    simp only [Bool.and_eq_false_iff, decide_eq_false_iff_not, BitVec.le_def, this]
    constructor <;> left <;> simp <;> omega
  have hfind : Str.find ((a ++ 46 :: b).map (BitVec.ofNat 16)) [46] = some a.length := by
    rw [List.map_append, List.map_cons]
    have := findAt_one 46 (a.map (BitVec.ofNat 16)) (b.map (BitVec.ofNat 16)) hno
    rw [List.length_map] at this
    exact this
  have hm1 : Str.mid ((a ++ 46 :: b).map (BitVec.ofNat 16)) 0 a.length = a.map (BitVec.ofNat 16) := by
    rw [(Str.C38_slices_utf16 _ hsur 0 a.length).2.1, (Str.C38_slices _ 0 a.length).2.1]
    rw [List.drop_zero, List.map_append, List.take_append_of_le_length (by simp), List.take_of_length_le (by simp)]
  have hm2 : Str.mid ((a ++ 46 :: b).map (BitVec.ofNat 16)) (a.length + 1) ((a ++ 46 :: b).map (BitVec.ofNat 16)).length =
      b.map (BitVec.ofNat 16) := by
    rw [(Str.C38_slices_utf16 _ hsur _ _).2.1, (Str.C38_slices _ _ _).2.1]
    rw [List.take_of_length_le (by simp)]
    rw [List.map_append, List.map_cons, List.drop_append]
    simp
  unfold versionOf
  rw [hfind]
  simp only [hm1, hm2]
  rw [points_small (fun c hc => by have := da c hc; omega), points_small (fun c hc => by have := db c hc; omega)]
  simp only [Option.bind_some]
  rw [stoi_decimal ha h1, stoi_decimal hb h2]

/-! ### The description -/

/-- The root of the document that is written. -/
def root (x : Scene.Xml) : Scene.Xml := .elem "GDTF".toList [("DataVersion".toList, "1.2".toList)] [] [x]

/-- What is known about a description that is written. -/
theorem text_of (F : Fl) (init : String → Members) (fresh : String → Obj Members) (o : Obj Members) (h : Ordinary init o)
    (hl : AllLegible o) (hcls : o.cls = "GdtfFixture") :
    ∃ x, writeDescription F init fresh o = some (bytesOf (Xml.writeXmlText (root x))) ∧
      charsOf (bytesOf (Xml.writeXmlText (root x))) = Xml.writeXmlText (root x) ∧ Xml.Spec.Plain (root x) ∧
      Xml.Spec.levels (root x) = (writeValues F init fresh o).depth ∧ elemIn x = some (writeValues F init fresh o) ∧
      ∃ as ks, x = .elem "FixtureType".toList as [] ks := by
  obtain ⟨x, x1, x2, x3, x4, x5, as, ks, x6⟩ := elem_back _ (values_sound F init fresh o h hl)
  have hn : (writeValues F init fresh o).name = "FixtureType" := by
    unfold writeValues
    cases o with
    | mk cls d kids =>
      rw [walk, write, Elem.name]
      simp only [Obj.cls] at hcls
      subst hcls
      rfl
  refine ⟨x, ?_, ?_, ?_, ?_, x2, as, ks, by rw [← hn]; exact x6⟩
  · unfold writeDescription
    rw [x1]; rfl
  · apply chars_bytes
    apply octets_text
    unfold root
    rw [OctetXml]
    refine ⟨by decide, by decide, octets_nil, x4, trivial⟩
  · unfold root
    rw [Xml.Spec.Plain]
    refine ⟨?_, ?_, by simp, by simp [Xml.Spec.Clean], .inl rfl, x3, trivial⟩
    · exact (nameOk_name (s := "GDTF") (by decide +kernel)).1
    · intro a ha
      simp only [List.mem_singleton] at ha
      subst ha
      exact ⟨(nameOk_name (s := "DataVersion") (by decide +kernel)).1, by decide⟩
  · unfold root
    rw [Xml.Spec.levels, if_neg (by simp), Xml.Spec.levelsAll, Xml.Spec.levelsAll, ← x5]
    omega

theorem root_version (x : Scene.Xml) : rootAttr (root x) "DataVersion" = some [49, 46, 50] := by
  unfold root rootAttr
  simp only
  decide

theorem root_child (as : List (Xml.Str × Xml.Str)) (ks : List Scene.Xml) :
    childOf (root (.elem "FixtureType".toList as [] ks)) "FixtureType" = some (.elem "FixtureType".toList as [] ks) := by
  unfold root childOf
  simp

/-- **C81**, exactly which descriptions are read: a fixture of which all texts can be kept by XML is written, and reading the bytes gives
what reading the elements gives (C80), with the version 1.2; unless there are more than 98 levels of elements, when nothing is read. Both
are reported as success. -/
theorem C81_text (F : Fl) (init : String → Members) (fresh : String → Obj Members) (o : Obj Members) (h : Ordinary init o)
    (hl : AllLegible o) (hcls : o.cls = "GdtfFixture") :
    ∃ b, writeDescription F init fresh o = some b ∧
      readDescription F init fresh (some b) =
        if (writeValues F init fresh o).depth ≤ 98 then some ⟨true, 1, 2, some (readValues F init fresh o.cls (writeValues F init fresh o))⟩
        else some ⟨true, 0, 0, none⟩ := by
  obtain ⟨x, h1, h2, h3, h4, h5, as, ks, rfl⟩ := text_of F init fresh o h hl hcls
  refine ⟨_, h1, ?_⟩
  unfold readDescription
  simp only
  rw [h2, Xml.read_tree _ h3, h4]
  by_cases hd : (writeValues F init fresh o).depth ≤ 98
  · rw [if_pos hd, if_pos hd]
    simp only
    rw [root_version, root_child]
    simp only [Option.bind_eq_bind, Option.bind_some]
    rw [h5, hcls]
    have : versionOf [49, 46, 50] = (1, 2) := by decide
    rw [this]
    rfl
  · rw [if_neg hd, if_neg hd]

/-- **C81**: a fixture of at most 49 objects inside of each other, with texts that XML can keep, is written to bytes. Reading these bytes
succeeds, the version is 1.2, and every member that is written has the value it had (numbers as near as six decimals are), at the same
place; every reference has the text that it was written with. -/
theorem C81_file_partial (F : Fl) (init : String → Members) (fresh : String → Obj Members) (hi : Suitable init) (o : Obj Members)
    (h : Ordinary init o) (hl : AllLegible o) (hcls : o.cls = "GdtfFixture") (hn : nested o ≤ 49) :
    ∃ b r o', writeDescription F init fresh o = some b ∧ readDescription F init fresh (some b) = some r ∧
      r.reported = true ∧ r.version = (.noError, 1, 2) ∧ r.fixture = some o' ∧
      SameValues o o' ∧ SameLinks o o' := by
  obtain ⟨b, hb, hr⟩ := C81_text F init fresh o h hl hcls
  have hd := values_depth F init fresh o
  rw [if_pos (by omega)] at hr
  refine ⟨b, _, _, hb, hr, rfl, rfl, rfl, ?_, ?_⟩
  · intro p cls d hc hd hs i hw hg
    exact C80_values_partial F init fresh hi o h p cls d hc hd hs i hw hg
  · intro p d hd k hk hc i hi' hdef hg t h1 h2
    exact C80_links F init fresh hi o h p d k hk hc hd i hi' hdef hg t (.inl ⟨h1, h2⟩)

/-- **C81 is violated** by fixtures with more than 98 objects inside of each other: they are written, reading is reported to have
succeeded, and nothing has been read. -/
theorem C81_deep_violated (F : Fl) (init : String → Members) (fresh : String → Obj Members) (o : Obj Members)
    (h : Ordinary init o) (hl : AllLegible o) (hcls : o.cls = "GdtfFixture") (hn : 98 < nested o) :
    ∃ b r, writeDescription F init fresh o = some b ∧ readDescription F init fresh (some b) = some r ∧
      r.reported = true ∧ r.version.1 = .failed ∧ r.fixture = none := by
  obtain ⟨b, hb, hr⟩ := C81_text F init fresh o h hl hcls
  have hd := values_deep F init fresh o h.tree
  rw [if_neg (by omega)] at hr
  exact ⟨b, _, hb, hr, rfl, rfl, rfl⟩

/-- **C81 is violated** by descriptions that have been cut off, wherever: reading what is left of a description is reported to have
succeeded, and nothing has been read. -/
theorem C81_truncated_violated (F : Fl) (init : String → Members) (fresh : String → Obj Members) (o : Obj Members)
    (h : Ordinary init o) (hl : AllLegible o) (hcls : o.cls = "GdtfFixture") (b : List Byte)
    (hb : writeDescription F init fresh o = some b) (P Q : List Byte) (hpq : b = P ++ Q) (hq : Q ≠ []) :
    ∃ r, readDescription F init fresh (some P) = some r ∧ r.reported = true ∧ r.version.1 = .failed ∧ r.fixture = none := by
  obtain ⟨x, h1, h2, h3, -, -, -⟩ := text_of F init fresh o h hl hcls
  rw [h1, Option.some.injEq] at hb
  have hv := Xml.ofXml_valid (root x) h3
  have hcut : Xml.readBuffer (charsOf P) = none := by
    have e : Xml.writeXmlText (root x) = charsOf P ++ charsOf Q := by
      rw [← h2, hb, hpq]
      unfold charsOf
      rw [List.map_append]
    unfold Xml.writeXmlText root at e
    unfold root at hv
    rw [Xml.ofXml] at e hv
    exact Xml.cut_none hv e (by unfold charsOf; simpa using hq)
  refine ⟨⟨true, 0, 0, none⟩, ?_, rfl, rfl, rfl⟩
  unfold readDescription
  simp only [hcut]

/-- C81: bytes that are not an XML document are never read, and always reported as success. -/
theorem C81_unparsable_violated (F : Fl) (init : String → Members) (fresh : String → Obj Members) (b : List Byte)
    (hb : Xml.readBuffer (charsOf b) = none) :
    ∃ r, readDescription F init fresh (some b) = some r ∧ r.reported = true ∧ r.version.1 = .failed ∧ r.fixture = none := by
  refine ⟨⟨true, 0, 0, none⟩, ?_, rfl, rfl, rfl⟩
  unfold readDescription
  simp only [hb]

/-- C81: without a description in the package, reading is reported to have failed. -/
theorem C81_missing (F : Fl) (init : String → Members) (fresh : String → Obj Members) :
    ∃ r, readDescription F init fresh none = some r ∧ r.reported = false ∧ r.version.1 = .failed ∧ r.fixture = none :=
  ⟨_, rfl, rfl, rfl, rfl⟩

/-! ### The version that is read -/

/-- **C81**, the version: a description is read without an exception and the attribute `DataVersion` of its root is the text of a version
of two numbers below 2³¹. If none is zero, exactly this version is reported. -/
theorem C81_version_partial (F : Fl) (init : String → Members) (fresh : String → Obj Members) (b : List Byte) (r : Reading)
    (hr : readDescription F init fresh (some b) = some r) (n : Xml.Str) (as : List (Xml.Str × Xml.Str)) (x : Xml.Str)
    (ks : List Scene.Xml) (hb : Xml.readBuffer (charsOf b) = some (.elem n as x ks)) (v : Xml.Str)
    (hv : as.find? (fun p => p.1 == "DataVersion".toList) = some ("DataVersion".toList, v)) (t : Txt) (ht : attrIn v = some t)
    (major minor : Nat) (hm : VersionText t major minor) (h1 : major < 2 ^ 31) (h2 : minor < 2 ^ 31) :
    r.version = if 0 < major ∧ 0 < minor then (.noError, (major : Int), (minor : Int)) else (.failed, 0, 0) := by
  unfold readDescription at hr
  simp only [hb, rootAttr, hv, ht, Option.bind_eq_bind, Option.bind_some, version_text hm h1 h2] at hr
  have key : ∀ f, (⟨true, (major : Int), (minor : Int), f⟩ : Reading).version =
      if 0 < major ∧ 0 < minor then (.noError, (major : Int), (minor : Int)) else (.failed, 0, 0) := by
    intro f
    unfold Reading.version
    simp only
    by_cases h : 0 < major ∧ 0 < minor
    · rw [if_neg (by omega), if_pos h]
    · rw [if_pos (by omega), if_neg h]
  split at hr
  · rw [← Option.some.inj hr]; exact key _
  · rw [Option.bind_eq_some_iff] at hr
    obtain ⟨e, -, hr⟩ := hr
    rw [← Option.some.inj hr]; exact key _

/-- **C81 is violated** by the versions `n.0`: a fixture of this version is read, and asking for its version fails. -/
theorem C81_version_zero_violated (F : Fl) (init : String → Members) (fresh : String → Obj Members) (b : List Byte) (r : Reading)
    (hr : readDescription F init fresh (some b) = some r) (n : Xml.Str) (as : List (Xml.Str × Xml.Str)) (x : Xml.Str)
    (ks : List Scene.Xml) (hb : Xml.readBuffer (charsOf b) = some (.elem n as x ks)) (v : Xml.Str)
    (hv : as.find? (fun p => p.1 == "DataVersion".toList) = some ("DataVersion".toList, v)) (t : Txt) (ht : attrIn v = some t)
    (major : Nat) (hm : VersionText t major 0) (h1 : major < 2 ^ 31) : r.version = (.failed, 0, 0) := by
  rw [C81_version_partial F init fresh b r hr n as x ks hb v hv t ht major 0 hm h1 (by decide), if_neg (by omega)]

/-! ### Texts that are none -/

theorem points_sound : ∀ (t : Txt) (cs : List Nat), points t = some cs → (∀ c ∈ cs, IsScalar c) ∧ t = cs.flatMap utf16
  | [], cs, h => by
    rw [points, Option.some.injEq] at h
    subst h
    exact ⟨by simp, rfl⟩
  | u :: t, cs, h => by
    have hu := u.isLt
    rw [points.eq_def] at h
    simp only at h
    split at h
    · rename_i h1
      cases t with
      | nil => cases h
      | cons v t =>
        have hv := v.isLt
        simp only at h
        split at h
        · rename_i h2
          rw [Option.map_eq_some_iff] at h
          obtain ⟨r, hr, rfl⟩ := h
          obtain ⟨i1, i2⟩ := points_sound t r hr
          unfold Str.isHigh at h1
          unfold Str.isLow at h2
          simp only [Bool.and_eq_true, decide_eq_true_eq, BitVec.le_def] at h1 h2
          have e1 : (0xD800#16).toNat = 0xD800 := rfl
          have e2 : (0xDBFF#16).toNat = 0xDBFF := rfl
          have e3 : (0xDC00#16).toNat = 0xDC00 := rfl
          have e4 : (0xDFFF#16).toNat = 0xDFFF := rfl
          refine ⟨?_, ?_⟩
          · intro c hc
            rcases List.mem_cons.1 hc with e | hc
            · refine ⟨?_, ?_⟩ <;> omega
            · exact i1 c hc
          · rw [List.flatMap_cons, ← i2]
            unfold utf16
            rw [if_neg (by omega)]
            simp only [List.cons_append, List.nil_append, List.cons.injEq, and_true]
            constructor
            · apply BitVec.eq_of_toNat_eq
              rw [BitVec.toNat_ofNat, Nat.mod_eq_of_lt (by omega)]
              omega
            · apply BitVec.eq_of_toNat_eq
              rw [BitVec.toNat_ofNat, Nat.mod_eq_of_lt (by omega)]
              omega
        · cases h
    · split at h
      · cases h
      · rename_i h1 h2
        rw [Option.map_eq_some_iff] at h
        obtain ⟨r, hr, rfl⟩ := h
        obtain ⟨i1, i2⟩ := points_sound t r hr
        unfold Str.isHigh at h1
        unfold Str.isLow at h2
        simp only [Bool.and_eq_true, decide_eq_true_eq, BitVec.le_def] at h1 h2
        have e1 : (0xD800#16).toNat = 0xD800 := rfl
        have e2 : (0xDBFF#16).toNat = 0xDBFF := rfl
        have e3 : (0xDC00#16).toNat = 0xDC00 := rfl
        have e4 : (0xDFFF#16).toNat = 0xDFFF := rfl
        refine ⟨?_, ?_⟩
        · intro c hc
          rcases List.mem_cons.1 hc with rfl | hc
          · refine ⟨?_, ?_⟩ <;> omega
          · exact i1 c hc
        · rw [List.flatMap_cons, ← i2]
          unfold utf16
          rw [if_pos (by omega)]
          simp

theorem firstPoint_sound {s : List Byte} {c n : Nat} (h : firstPoint s = some (c, n)) : IsScalar c ∧ utf8 c = s.take n := by
  have key : ∀ x m, (if x ≤ 0x10FFFF ∧ ¬ (0xD800 ≤ x ∧ x ≤ 0xDFFF) ∧ utf8 x = s.take m then some (x, m) else none) = some (c, n) →
      IsScalar c ∧ utf8 c = s.take n := by
    intro x m h
    split at h
    · rename_i h1
      simp only [Option.some.injEq, Prod.mk.injEq] at h
      obtain ⟨rfl, rfl⟩ := h
      exact ⟨⟨h1.1, h1.2.1⟩, h1.2.2⟩
    · cases h
  unfold firstPoint at h
  simp only at h
  split at h
  · cases h
  · split at h
    · exact key _ _ h
    · split at h
      · cases h
      · split at h
        · exact key _ _ h
        · split at h
          · cases h
          · split at h
            · exact key _ _ h
            · split at h
              · cases h
              · exact key _ _ h

theorem fromBytes_sound : ∀ (n : Nat) (s : List Byte) (t : Txt), fromBytes n s = some t →
    ∃ cs : List Nat, (∀ c ∈ cs, IsScalar c) ∧ s = cs.flatMap utf8 ∧ t = cs.flatMap utf16 := by
  intro n
  induction n with
  | zero =>
    intro s t h
    cases s with
    | nil => rw [fromBytes, Option.some.injEq] at h; exact ⟨[], by simp, rfl, h.symm⟩
    | cons a s => simp [fromBytes] at h
  | succ n ih =>
    intro s t h
    cases s with
    | nil => rw [fromBytes, Option.some.injEq] at h; exact ⟨[], by simp, rfl, h.symm⟩
    | cons a s =>
      rw [fromBytes, Option.bind_eq_some_iff] at h
      obtain ⟨⟨c, m⟩, h1, h2⟩ := h
      simp only [Option.map_eq_some_iff] at h2
      obtain ⟨r, h2, rfl⟩ := h2
      obtain ⟨k1, k2⟩ := firstPoint_sound h1
      obtain ⟨cs, c1, c2, c3⟩ := ih _ _ h2
      refine ⟨c :: cs, ?_, ?_, ?_⟩
      · intro x hx
        rcases List.mem_cons.1 hx with rfl | hx
        · exact k1
        · exact c1 x hx
      · rw [List.flatMap_cons, k2, ← c2, List.take_append_drop]
      · rw [List.flatMap_cons, c3]
      · simp

/-- **C81 is violated** by bytes that are not UTF-8: a document that is a root with a `DataVersion` of such bytes (neither null nor carriage
return among them) ends the reading with an exception. -/
theorem C81_not_utf8_violated (F : Fl) (init : String → Members) (fresh : String → Obj Members) (v : List Byte) (h0 : 0 ∉ v) (h13 : 13 ∉ v)
    (hv : ¬ ∃ cs : List Nat, (∀ c ∈ cs, IsScalar c) ∧ v = cs.flatMap utf8) :
    readDescription F init fresh
      (some (bytesOf (Xml.writeXmlText (.elem "GDTF".toList [("DataVersion".toList, charsOf v)] [] [])))) = none := by
  have hin : ∀ n : Nat, n < 128 → BitVec.ofNat 8 n ∉ v → Char.ofNat n ∉ charsOf v := by
    intro n hn hm hx
    obtain ⟨y, hy, e⟩ := List.mem_map.1 hx
    have e := congrArg Char.toNat e
    have hy' := y.isLt
    rw [char_small _ (by omega), char_small _ (by omega)] at e
    apply hm
    rw [← e, BitVec.ofNat_toNat, BitVec.setWidth_eq]
    exact hy
  have hp : Xml.Spec.Plain (.elem "GDTF".toList [("DataVersion".toList, charsOf v)] [] []) := by
    rw [Xml.Spec.Plain]
    refine ⟨(nameOk_name (s := "GDTF") (by decide +kernel)).1, ?_, by simp, by simp [Xml.Spec.Clean], .inl rfl, trivial⟩
    intro a ha
    simp only [List.mem_singleton] at ha
    subst ha
    exact ⟨(nameOk_name (s := "DataVersion") (by decide +kernel)).1, hin 13 (by omega) h13, hin 0 (by omega) h0⟩
  have ho : OctetXml (.elem "GDTF".toList [("DataVersion".toList, charsOf v)] [] []) := by
    rw [OctetXml]
    refine ⟨by decide, ?_, octets_nil, trivial⟩
    intro a ha
    simp only [List.mem_singleton] at ha
    subst ha
    exact ⟨show Octets "DataVersion".toList by decide, chars_small v⟩
  have ha : attrIn (charsOf v) = none := by
    cases e : attrIn (charsOf v) with
    | none => rfl
    | some t =>
      unfold attrIn at e
      rw [bytes_chars] at e
      obtain ⟨cs, c1, c2, -⟩ := fromBytes_sound _ _ _ e
      exact absurd ⟨cs, c1, c2⟩ hv
  unfold readDescription
  simp only
  rw [chars_bytes (octets_text ho), Xml.read_tree _ hp, if_pos (by simp [Xml.Spec.levels])]
  simp [rootAttr, ha]

theorem attrsOut_none {t : Txt} (ht : attrOut t = none) : ∀ (as : Attrs) (a : String), (a, t) ∈ as → attrsOut as = none
  | [], a, h => by cases h
  | (b, s) :: as, a, h => by
    rw [attrsOut]
    rcases List.mem_cons.1 h with e | h
    · injection e with e1 e2
      subst e2
      simp [ht]
    · rw [attrsOut_none ht as a h]
      cases attrOut s <;> rfl

/-- **C81 is violated** by a name that is not UTF-16 (a surrogate without its partner): writing ends with an exception. -/
theorem C81_not_utf16_violated (F : Fl) (init : String → Members) (fresh : String → Obj Members) (d : Members)
    (ks : List (List (Obj Members))) (t : Txt) (hd : d "fName" = .text t)
    (ht : ¬ ∃ cs : List Nat, (∀ c ∈ cs, IsScalar c) ∧ t = cs.flatMap utf16) :
    writeDescription F init fresh (.mk "GdtfFixture" d ks) = none := by
  have ha : attrOut t = none := by
    unfold attrOut toBytes
    cases e : points t with
    | none => rfl
    | some cs => exact absurd ⟨cs, points_sound t cs e⟩ ht
  unfold writeDescription writeValues
  rw [walk, write, elemOut]
  have hm : ("Name", t) ∈ (valueSchema F init fresh).enc "GdtfFixture" (fun f => dmxText (reso 2 "GdtfFixture" d) (d f)) := by
    have hk : kinds.find? (fun k => k.name == "GdtfFixture") = some Node.kFixture := by decide +kernel
    simp only [valueSchema, hk]
    generalize hd' : (fun f => dmxText (reso 2 "GdtfFixture" d) (d f)) = d'
    have hn : d' "fName" = .text t := by rw [← hd']; simp only [hd]; rfl
    have := Node.getAttr_write Node.kFixture (conv F) (cond d') d' ⟨"Name", "fName", .text, .always⟩ (by decide +kernel) rfl (by
      intro j hj _ e
      have : ∀ j ∈ Node.kFixture.writes, j.attr = "Name" → j = ⟨"Name", "fName", .text, .always⟩ := by decide +kernel
      exact this j hj e)
    unfold Node.getAttr at this
    rw [Option.map_eq_some_iff] at this
    obtain ⟨⟨a, s⟩, h1, h2⟩ := this
    have h3 := List.find?_some h1
    simp only [beq_iff_eq] at h3
    have h4 := List.mem_of_find?_eq_some h1
    have h5 : s = t := by
      rw [← show (conv F).text ⟨"Name", "fName", .text, .always⟩ d' = t from ?_]
      · exact h2
      · simp [Node.Conv.text, conv, cvOf, enc, hn]
    rw [h3, h5] at h4
    exact h4
  rw [attrsOut_none ha _ _ hm]
  rfl

/-! ### From the fixture to the file and back -/

/-- **C81**, the whole way: a fixture is written as in `C81_file_partial`, an object opens any file, adds resources as in C78 and closes it.
Whoever reads the file, or the bytes that the object hands out, later and with any object, gets a fixture with the values that were
written. -/
theorem C81_package_partial (F : Fl) (init : String → Members) (fresh : String → Obj Members) (hi : Suitable init) (fixture : Obj Members)
    (h : Ordinary init fixture) (hl : AllLegible fixture) (hcls : fixture.cls = "GdtfFixture") (hn : nested fixture ≤ 49) :
    ∃ xml, writeDescription F init fresh fixture = some xml ∧
    ∀ {codec : Zip.Codec} (fuel : Nat)
      (order : List (List Char × List Byte) → List (List Char × List Byte)) (_ : ∀ l, (order l).Perm l) (stamps : Nat → Pack.Stamp)
      (B : List (List Char)) (g n : List Char) (_ : ∀ q ∈ B ++ [g, n], Path.Spec.Plain q)
      (calls : List (Pack.Stamp × Pack.Fs × Pack.Spec.GCall)) (_ : ∀ c ∈ calls, c.2.2.Usual)
      (_ : ∀ i ∈ Pack.Spec.items calls, i.entry ≠ Pack.gdtfDesc)
      (p : Pack.Spec.Place) (_ : p.Usual)
      (_ : Pack.Spec.Fits codec false (Pack.Spec.package (Pack.Spec.once [] (Pack.Spec.items calls)) ++ [(Pack.gdtfDesc, xml)]))
      (_ : calls.length + 2 ≤ fuel) (o : Pack.Fix) (fs : Pack.Fs),
      ∃ o1 fs1 o2, o.openWrite fs p.text = (.noError, o1, fs1) ∧ Pack.Spec.gperform codec fuel o1 calls = .ok o2 ∧
        ∀ disk : Pack.Fs, disk.dir (Path.Spec.folderText p.folders) = true → ∃ o3 disk',
          o2.close codec fuel order stamps disk xml = .ok (.noError, o3, disk') ∧ disk'.file p.text = some o3.buffer ∧
          ∀ (stale : Byte) (garbage : Zip.FileInfo) (r0 : Pack.Fix) (later : Pack.Fs), later.dir (Path.Spec.folderText B) = true →
            later.file p.text = some o3.buffer →
            ∃ r fs' q fixture', r0.readFile codec fuel stale garbage ([] :: (B ++ [g, n])) later p.text = .ok (.noError, r, fs') ∧
              readDescription F init fresh r.desc = some q ∧ q.reported = true ∧ q.version = (.noError, 1, 2) ∧
              q.fixture = some fixture' ∧ SameValues fixture fixture' ∧ SameLinks fixture fixture' := by
  obtain ⟨xml, r, fixture', h1, h2, h3, h4, h5, h6, h7⟩ := C81_file_partial F init fresh hi fixture h hl hcls hn
  refine ⟨xml, h1, ?_⟩
  intro codec fuel order horder stamps B g n hW calls hc hx p hp hfit hf o fs
  obtain ⟨o1, fs1, o2, k1, -, k2, k3⟩ :=
    Pack.C78_round_trip_partial fuel order horder stamps B g n hW calls hc hx p hp xml hfit hf o fs
  refine ⟨o1, fs1, o2, k1, k2, ?_⟩
  intro disk hd
  obtain ⟨o3, disk', m1, m2, -, m3⟩ := k3 disk hd
  refine ⟨o3, disk', m1, m2, ?_⟩
  intro stale garbage r0 later hl hfile
  obtain ⟨r', fs', n1, n2⟩ := (m3 stale garbage r0 later hl).2 hfile
  exact ⟨r', fs', r, fixture', n1, by rw [n2.desc]; exact h2, h3, h4, h5, h6, h7⟩

/-! ### Fixtures that meet the hypotheses -/

theorem legible_start (cv : Cv) : LegibleVal (start cv) := by
  cases cv <;> first | trivial | exact ⟨[], by simp, rfl⟩

theorem legible_initial (cls f : String) : LegibleVal (initial cls f) := by
  have hs : ∀ p ∈ special, LegibleVal p.2 := by
    intro p hp
    simp only [special, List.mem_cons, List.not_mem_nil, or_false] at hp
    rcases hp with rfl | rfl | rfl | rfl | rfl | rfl | rfl | rfl | rfl | rfl | rfl | rfl | rfl | rfl | rfl | rfl | rfl | rfl <;>
      first | trivial | exact ⟨[], by simp, rfl⟩
  unfold initial
  split
  · rename_i p hp
    exact hs p (List.mem_of_find?_eq_some hp)
  · split
    · split
      · exact legible_start _
      · exact ⟨[], by simp, rfl⟩
    · exact ⟨[], by simp, rfl⟩

theorem legible_some (cls f : String) : LegibleVal (given someValues cls f) := by
  unfold given
  split
  · rename_i p hp
    have h1 := List.mem_of_find?_eq_some hp
    simp only [someValues, List.mem_cons, List.not_mem_nil, or_false] at h1
    have ascii : ∀ s : List Char, (∀ c ∈ s, 0 < c.toNat ∧ c.toNat < 128 ∧ c.toNat ≠ 13) → Legible (toTxt s) := by
      intro s hs
      refine ⟨s.map Char.toNat, ?_, ?_⟩
      · intro c hc
        obtain ⟨x, hx, rfl⟩ := List.mem_map.1 hc
        have := hs x hx
        refine ⟨⟨?_, ?_⟩, ?_, ?_⟩ <;> omega
      · induction s with
        | nil => rfl
        | cons x s ih =>
          have hx := hs x (by simp)
          have e : utf16 x.toNat = [BitVec.ofNat 16 x.toNat] := by unfold utf16; rw [if_pos (by omega)]
          rw [List.map_cons, List.flatMap_cons, e, ← ih (fun c hc => hs c (by simp [hc]))]
          rfl
    rcases h1 with rfl | rfl | rfl | rfl | rfl | rfl <;> first | trivial | exact ascii _ (by decide)
  · exact legible_initial cls f

theorem legible_paint (o : Obj Members) (ho : Tree classes o) : AllLegible (paint (given someValues) o) := by
  intro p d hd f
  have hc : ∃ cls, classAt (paint (given someValues) o) p = some cls := by
    unfold dataAt at hd
    unfold classAt
    cases ha : Obj.at (paint (given someValues) o) p with
    | none => rw [ha] at hd; cases hd
    | some x => exact ⟨_, rfl⟩
  obtain ⟨cls, hc⟩ := hc
  rw [data_paint _ ho p cls d hc hd]
  exact legible_some cls f

/-- Members without a value. -/
def undef : Members := fun _ => .undef

/-- The fixture of C80, with the name "Spot 1/2", is written, and reading gives its values. -/
example (F : Fl) (fresh : String → Obj Members) :
    let o := paint (given someValues) (sample undef [] [])
    ∃ b r o', writeDescription F initial fresh o = some b ∧ readDescription F initial fresh (some b) = some r ∧
      r.reported = true ∧ r.version = (.noError, 1, 2) ∧ r.fixture = some o' ∧ SameValues o o' ∧ SameLinks o o' := by
  intro o
  have ht : Tree classes (sample undef [] []) := tree_sample undef [] [] (by simp) (by simp)
  have ho := some_ordinary _ ht (sample_classes _)
  refine C81_file_partial F initial fresh initial_suitable o ho (legible_paint _ ht) rfl ?_
  show nested (paint (given someValues) (sample undef [] [])) ≤ 49
  simp [paint, sample, change, changeAll, changeList, bare, Obj.cls, nested, nestedAll, nestedList]

/-- Axes inside of each other. -/
def axes (d : Members) : Nat → Obj Members
  | 0 => .mk "GdtfGeometryAxis" d [[]]
  | n + 1 => .mk "GdtfGeometryAxis" d [[axes d n]]

theorem cls_mk (c : String) (d : Members) (ks : List (List (Obj Members))) : (Obj.mk c d ks).cls = c := rfl

theorem axes_cls (d : Members) (n : Nat) : (axes d n).cls = "GdtfGeometryAxis" := by cases n <;> rfl

theorem axes_tree (d : Members) : ∀ n, Tree classes (axes d n)
  | 0 => tree_of _ _ _ [[]] rfl (by decide +kernel) (by simp)
  | n + 1 => tree_of _ _ _ [["GdtfGeometryAxis"]] (by simp [axes_cls]) (by decide +kernel) (by simp [axes_tree d n])

theorem axes_change (f : String → Members → Members) (drop : String) (hd : drop ≠ "GdtfGeometryAxis") (d : Members) :
    ∀ n, change f drop (axes d n) = axes (f "GdtfGeometryAxis" d) n
  | 0 => by simp [axes, change, changeAll, changeList]
  | n + 1 => by
    simp only [axes, change, changeAll, changeList, axes_cls]
    rw [if_neg (by simpa using hd.symm), axes_change f drop hd d n]

theorem axes_nested (d : Members) : ∀ n, nested (axes d n) = n + 1
  | 0 => by simp [axes, nested, nestedAll, nestedList]
  | n + 1 => by simp [axes, nested, nestedAll, nestedList, axes_nested d n]; omega

theorem axes_classes (d : Members) (n : Nat) (q : List (Nat × Nat)) : classAt (sample d [axes d n] []) q ≠ some "GdtfUserPreset" := by
  have hc : change (fun _ d => d) "GdtfUserPreset" (sample d [axes d n] []) = sample d [axes d n] [] := by
    have e : ∀ n, change (fun _ d => d) "GdtfUserPreset" (axes d n) = axes d n := fun n => axes_change _ _ (by decide) d n
    simp [sample, change, changeAll, changeList, bare, e, axes_cls, cls_mk]
  have := noDrop_change (fun _ d => d) "GdtfUserPreset" q (sample d [axes d n] []) (by simp [sample, Obj.cls])
  rwa [hc] at this

/-- A fixture with a hundred axes inside of each other is written and not read. -/
example (F : Fl) (fresh : String → Obj Members) :
    let o := paint (given someValues) (sample undef [axes undef 99] [])
    ∃ b r, writeDescription F initial fresh o = some b ∧ readDescription F initial fresh (some b) = some r ∧
      r.reported = true ∧ r.version.1 = .failed ∧ r.fixture = none := by
  intro o
  have ht : Tree classes (sample undef [axes undef 99] []) :=
    tree_sample undef _ [] (by simp [axes_tree, axes_cls]) (by simp)
  have ho := some_ordinary _ ht (axes_classes _ _)
  refine C81_deep_violated F initial fresh o ho (legible_paint _ ht) rfl ?_
  show 98 < nested (paint (given someValues) (sample undef [axes undef 99] []))
  have e : ∀ n, change (fun cls _ => given someValues cls) "" (axes undef n) = axes (given someValues "GdtfGeometryAxis") n :=
    fun n => axes_change _ _ (by decide) undef n
  simp [paint, sample, change, changeAll, changeList, bare, cls_mk, nested, nestedAll, nestedList, e, axes_cls, axes_nested]

/-- A description without its last byte. -/
example (F : Fl) (fresh : String → Obj Members) :
    let o := paint (given someValues) (sample undef [] [])
    ∃ b r, writeDescription F initial fresh o = some b ∧ readDescription F initial fresh (some b.dropLast) = some r ∧
      r.reported = true ∧ r.version.1 = .failed ∧ r.fixture = none := by
  intro o
  have ht : Tree classes (sample undef [] []) := tree_sample undef [] [] (by simp) (by simp)
  have ho := some_ordinary _ ht (sample_classes _)
  obtain ⟨b, hb, hr⟩ := C81_text F initial fresh o ho (legible_paint _ ht) rfl
  have hne : b ≠ [] := by
    rintro rfl
    rw [if_pos] at hr
    · have e : Xml.readBuffer (charsOf []) = none := by decide
      unfold readDescription at hr
      simp [e] at hr
    · have := values_depth F initial fresh o
      have : nested o ≤ 49 := by
        show nested (paint (given someValues) (sample undef [] [])) ≤ 49
        simp [paint, sample, change, changeAll, changeList, bare, Obj.cls, nested, nestedAll, nestedList]
      omega
  obtain ⟨r, hr⟩ := C81_truncated_violated F initial fresh o ho (legible_paint _ ht) rfl b hb b.dropLast [b.getLast hne]
    (List.dropLast_concat_getLast hne).symm (by simp)
  exact ⟨b, r, hb, hr⟩

/-- Version 12.7. -/
example : VersionText [49, 50, 46, 55] 12 7 :=
  ⟨[49, 50], [55], .more [49] 1 2 (.one 1 (by decide)) (by decide), .one 7 (by decide), rfl⟩

/-- A description of version 12.7, and one of version 2.0. -/
example (F : Fl) (init : String → Members) (fresh : String → Obj Members) :
    (∃ r, readDescription F init fresh
      (some (bytesOf (Xml.writeXmlText (.elem "GDTF".toList [("DataVersion".toList, "12.7".toList)] [] [])))) = some r ∧
      r.version = (.noError, 12, 7)) ∧
    ∃ r, readDescription F init fresh
      (some (bytesOf (Xml.writeXmlText (.elem "GDTF".toList [("DataVersion".toList, "2.0".toList)] [] [])))) = some r ∧
      r.version = (.failed, 0, 0) := by
  have plain : ∀ v : List Char, Xml.Spec.Clean v → Xml.Spec.Plain (.elem "GDTF".toList [("DataVersion".toList, v)] [] []) := by
    intro v hv
    rw [Xml.Spec.Plain]
    refine ⟨(nameOk_name (s := "GDTF") (by decide +kernel)).1, ?_, by simp, by simp [Xml.Spec.Clean], .inl rfl, trivial⟩
    intro a ha
    simp only [List.mem_singleton] at ha
    subst ha
    exact ⟨(nameOk_name (s := "DataVersion") (by decide +kernel)).1, hv⟩
  have rd : ∀ v : List Char, Xml.Spec.Clean v → Octets v →
      Xml.readBuffer (charsOf (bytesOf (Xml.writeXmlText (.elem "GDTF".toList [("DataVersion".toList, v)] [] [])))) =
        some (.elem "GDTF".toList [("DataVersion".toList, v)] [] []) := by
    intro v hv hov
    rw [chars_bytes (octets_text ?_), Xml.read_tree _ (plain v hv), if_pos (by simp [Xml.Spec.levels])]
    rw [OctetXml]
    refine ⟨by decide, ?_, octets_nil, trivial⟩
    intro a ha
    simp only [List.mem_singleton] at ha
    subst ha
    exact ⟨show Octets "DataVersion".toList by decide, hov⟩
  have run : ∀ (v : List Char) (t : Txt), Xml.Spec.Clean v → Octets v → attrIn v = some t →
      readDescription F init fresh (some (bytesOf (Xml.writeXmlText (.elem "GDTF".toList [("DataVersion".toList, v)] [] [])))) =
        some ⟨true, (versionOf t).1, (versionOf t).2, none⟩ := by
    intro v t h1 h2 h3
    unfold readDescription
    simp only [rd v h1 h2]
    simp [rootAttr, childOf, h3]
  constructor
  · have h := run "12.7".toList [49, 50, 46, 55] (by decide) (by decide) (by decide)
    refine ⟨_, h, ?_⟩
    exact C81_version_partial F init fresh _ _ h _ _ _ _ (rd _ (by decide) (by decide)) "12.7".toList (by decide) [49, 50, 46, 55] (by decide)
      12 7 ⟨[49, 50], [55], .more [49] 1 2 (.one 1 (by decide)) (by decide), .one 7 (by decide), rfl⟩ (by decide) (by decide)
  · have h := run "2.0".toList [50, 46, 48] (by decide) (by decide) (by decide)
    refine ⟨_, h, ?_⟩
    exact C81_version_zero_violated F init fresh _ _ h _ _ _ _ (rd _ (by decide) (by decide)) "2.0".toList (by decide) [50, 46, 48] (by decide)
      2 ⟨[50], [48], .one 2 (by decide), .one 0 (by decide), rfl⟩ (by decide)

/-- A single byte 255 is not UTF-8, a single high surrogate is not UTF-16. -/
example : (¬ ∃ cs : List Nat, (∀ c ∈ cs, IsScalar c) ∧ ([255] : List Byte) = cs.flatMap utf8) ∧
    ¬ ∃ cs : List Nat, (∀ c ∈ cs, IsScalar c) ∧ ([0xD800] : Txt) = cs.flatMap utf16 := by
  constructor
  · rintro ⟨cs, h1, h2⟩
    have h := fromBytes_utf8 cs h1 1 (by rw [← h2]; decide)
    rw [← h2] at h
    have : fromBytes 1 ([255] : List Byte) = none := by decide
    rw [this] at h
    cases h
  · rintro ⟨cs, h1, h2⟩
    have h := points_utf16 cs h1
    rw [← h2] at h
    have : points ([0xD800] : Txt) = none := by decide
    rw [this] at h
    cases h

end Verif.Gdtf
