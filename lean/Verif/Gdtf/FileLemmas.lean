import Verif.Gdtf.FileSpec
import Verif.Pack.Utf8
import Verif.Str.Utf16
import Verif.Xml.Tree
import Verif.Mvr.File

/-!
# Lemmas about the text of a GDTF description
-/

namespace Verif.Gdtf

open Verif.Lookup (Txt)
open Verif.UnicodeSpec Spec
open Verif.Str (isHigh isLow utf16_cases)
open Verif.Pack (byte_ofNat)

/-! ### Bytes and characters -/

theorem char_small (n : Nat) (h : n < 0xD800) : (Char.ofNat n).toNat = n := by
  have hv : n.isValidChar := .inl h
  unfold Char.ofNat
  rw [dif_pos hv]
  show (UInt32.ofNatLT n _).toNat = n
  simp

theorem bytes_chars (b : List Byte) : bytesOf (charsOf b) = b := by
  unfold bytesOf charsOf
  rw [List.map_map]
  conv => rhs; rw [← List.map_id b]
  apply List.map_congr_left
  intro x _
  show BitVec.ofNat 8 (Char.ofNat x.toNat).toNat = x
  rw [char_small _ (by have := x.isLt; omega)]
  simp

/-- Every character is a byte. -/
def Octets (s : Xml.Str) : Prop := ∀ c ∈ s, c.toNat < 256

theorem chars_bytes {s : Xml.Str} (h : Octets s) : charsOf (bytesOf s) = s := by
  unfold bytesOf charsOf
  rw [List.map_map]
  conv => rhs; rw [← List.map_id s]
  apply List.map_congr_left
  intro c hc
  show Char.ofNat (BitVec.ofNat 8 c.toNat).toNat = c
  rw [byte_ofNat _ (h c hc), Char.ofNat_toNat]

theorem chars_small (b : List Byte) : Octets (charsOf b) := by
  intro c hc
  obtain ⟨x, _, rfl⟩ := List.mem_map.1 hc
  have := x.isLt
  rw [char_small _ (by omega)]
  omega

theorem octets_append {s t : Xml.Str} : Octets (s ++ t) ↔ Octets s ∧ Octets t := by
  unfold Octets
  simp only [List.mem_append]
  constructor
  · intro h; exact ⟨fun c hc => h c (.inl hc), fun c hc => h c (.inr hc)⟩
  · rintro ⟨h1, h2⟩ c (hc | hc)
    · exact h1 c hc
    · exact h2 c hc

theorem octets_cons {c : Char} {t : Xml.Str} : Octets (c :: t) ↔ c.toNat < 256 ∧ Octets t := by
  unfold Octets
  simp

theorem octets_nil : Octets [] := fun _ h => by cases h

instance (s : Xml.Str) : Decidable (Octets s) := by unfold Octets; infer_instance

/-! ### UTF-16 and UTF-8 -/

theorem points_cons (c : Nat) (h : IsScalar c) (t : Txt) : points (utf16 c ++ t) = (points t).map (c :: ·) := by
  obtain ⟨h1, h2⟩ := h
  unfold utf16
  split
  · rename_i hc
    have e : (BitVec.ofNat 16 c).toNat = c := by rw [BitVec.toNat_ofNat]; exact Nat.mod_eq_of_lt (by omega)
    have a : isHigh (BitVec.ofNat 16 c) = false := by
      simp only [isHigh, BitVec.le_def, BitVec.toNat_ofNat, Bool.and_eq_false_iff, decide_eq_false_iff_not]; omega
    have b : isLow (BitVec.ofNat 16 c) = false := by
      simp only [isLow, BitVec.le_def, BitVec.toNat_ofNat, Bool.and_eq_false_iff, decide_eq_false_iff_not]; omega
    rw [List.singleton_append, points.eq_def]
    simp only [a, b, e, Bool.false_eq_true, if_false]
  · rename_i hc
    have e1 : (BitVec.ofNat 16 (0xD800 + (c - 0x10000) / 1024)).toNat = 0xD800 + (c - 0x10000) / 1024 := by
      rw [BitVec.toNat_ofNat]; exact Nat.mod_eq_of_lt (by omega)
    have e2 : (BitVec.ofNat 16 (0xDC00 + (c - 0x10000) % 1024)).toNat = 0xDC00 + (c - 0x10000) % 1024 := by
      rw [BitVec.toNat_ofNat]; exact Nat.mod_eq_of_lt (by omega)
    have a : isHigh (BitVec.ofNat 16 (0xD800 + (c - 0x10000) / 1024)) = true := by
      simp only [isHigh, BitVec.le_def, BitVec.toNat_ofNat, Bool.and_eq_true, decide_eq_true_eq]; omega
    have b : isLow (BitVec.ofNat 16 (0xDC00 + (c - 0x10000) % 1024)) = true := by
      simp only [isLow, BitVec.le_def, BitVec.toNat_ofNat, Bool.and_eq_true, decide_eq_true_eq]; omega
    simp only [List.cons_append, List.nil_append]
    rw [points.eq_def]
    simp only [a, b, if_true, e1, e2]
    rw [show 0x10000 + (0xD800 + (c - 0x10000) / 1024 - 0xD800) * 1024 + (0xDC00 + (c - 0x10000) % 1024 - 0xDC00) = c by omega]

theorem points_utf16 (cs : List Nat) (h : ∀ c ∈ cs, IsScalar c) : points (cs.flatMap utf16) = some cs := by
  induction cs with
  | nil => rfl
  | cons c cs ih =>
    rw [List.flatMap_cons, points_cons c (h c (by simp)), ih (fun x hx => h x (by simp [hx]))]
    rfl

theorem utf8_byte_ne (c : Nat) (h : c ≤ 0x10FFFF) (n : Nat) (hn : n < 128) (hc : c ≠ n) : BitVec.ofNat 8 n ∉ utf8 c := by
  have key : ∀ m, m < 256 → BitVec.ofNat 8 n = BitVec.ofNat 8 m → m = n := by
    intro m hm e
    have := congrArg BitVec.toNat e
    rw [byte_ofNat _ hm, byte_ofNat _ (by omega)] at this
    exact this.symm
  intro hm
  unfold utf8 at hm
  split at hm
  · rw [List.mem_singleton] at hm
    exact hc (key _ (by omega) hm)
  · split at hm
    · simp only [List.mem_cons, List.not_mem_nil, or_false] at hm
      rcases hm with hm | hm <;> have := key _ (by omega) hm <;> omega
    · split at hm
      · simp only [List.mem_cons, List.not_mem_nil, or_false] at hm
        rcases hm with hm | hm | hm <;> have := key _ (by omega) hm <;> omega
      · simp only [List.mem_cons, List.not_mem_nil, or_false] at hm
        rcases hm with hm | hm | hm | hm <;> have := key _ (by omega) hm <;> omega

theorem flat_byte_ne (cs : List Nat) (n : Nat) (hn : n < 128) (h : ∀ c ∈ cs, c ≤ 0x10FFFF ∧ c ≠ n) : BitVec.ofNat 8 n ∉ cs.flatMap utf8 := by
  intro hm
  obtain ⟨c, hc, hb⟩ := List.mem_flatMap.1 hm
  exact utf8_byte_ne c (h c hc).1 n hn (h c hc).2 hb

theorem toBytes_utf16 (cs : List Nat) (h : ∀ c ∈ cs, IsScalar c ∧ c ≠ 0) : toBytes (cs.flatMap utf16) = some (cs.flatMap utf8) := by
  unfold toBytes
  rw [points_utf16 cs (fun c hc => (h c hc).1), Option.map_some]
  congr 1
  have h0 : BitVec.ofNat 8 0 ∉ cs.flatMap utf8 := flat_byte_ne cs 0 (by omega) (fun c hc => ⟨(h c hc).1.1, (h c hc).2⟩)
  have : ∀ l : List Byte, BitVec.ofNat 8 0 ∉ l → l.takeWhile (· ≠ 0) = l := by
    intro l hl
    induction l with
    | nil => rfl
    | cons b l ih =>
      rw [List.takeWhile_cons, if_pos, ih (fun hm => hl (by simp [hm]))]
      simp only [ne_eq, decide_eq_true_eq]
      intro e
      exact hl (by rw [e]; simp)
  exact this _ h0

theorem firstPoint_utf8 (c : Nat) (h : IsScalar c) (r : List Byte) : firstPoint (utf8 c ++ r) = some (c, (utf8 c).length) := by
  obtain ⟨h1, h2⟩ := h
  have ok : ∀ (s : List Byte) (x n : Nat), x = c → n = (utf8 c).length → s = utf8 c ++ r →
      (if x ≤ 0x10FFFF ∧ ¬ (0xD800 ≤ x ∧ x ≤ 0xDFFF) ∧ utf8 x = s.take n then some (x, n) else none) = some (c, (utf8 c).length) := by
    rintro s x n rfl rfl rfl
    rw [if_pos ⟨h1, h2, by rw [List.take_left]⟩]
  by_cases a1 : c < 0x80
  · have e : utf8 c = [BitVec.ofNat 8 c] := by unfold utf8; rw [if_pos a1]
    have ok := ok _ c 1 rfl (by rw [e]; rfl) rfl
    rw [e] at ok ⊢
    simp only [List.cons_append, List.nil_append] at ok ⊢
    unfold firstPoint
    simp only
    rw [if_pos (by rw [byte_ofNat _ (by omega)]; omega), byte_ofNat _ (by omega)]
    rw [e]
    exact ok
  · by_cases a2 : c < 0x800
    · have e : utf8 c = [BitVec.ofNat 8 (0xC0 + c / 64), BitVec.ofNat 8 (0x80 + c % 64)] := by
        unfold utf8; rw [if_neg a1, if_pos a2]
      have ok := ok _ c 2 rfl (by rw [e]; rfl) rfl
      rw [e] at ok ⊢
      simp only [List.cons_append, List.nil_append] at ok ⊢
      unfold firstPoint
      simp only
      rw [if_neg (by rw [byte_ofNat _ (by omega)]; omega), if_pos (by rw [byte_ofNat _ (by omega)]; omega), byte_ofNat _ (by omega),
        byte_ofNat _ (by omega), show (0xC0 + c / 64 - 0xC0) * 64 + (0x80 + c % 64 - 0x80) = c by omega]
      rw [e]
      exact ok
    · by_cases a3 : c < 0x10000
      · have e : utf8 c = [BitVec.ofNat 8 (0xE0 + c / 4096), BitVec.ofNat 8 (0x80 + c / 64 % 64), BitVec.ofNat 8 (0x80 + c % 64)] := by
          unfold utf8; rw [if_neg a1, if_neg a2, if_pos a3]
        have ok := ok _ c 3 rfl (by rw [e]; rfl) rfl
        rw [e] at ok ⊢
        simp only [List.cons_append, List.nil_append] at ok ⊢
        unfold firstPoint
        simp only
        rw [if_neg (by rw [byte_ofNat _ (by omega)]; omega), if_neg (by rw [byte_ofNat _ (by omega)]; omega),
          if_pos (by rw [byte_ofNat _ (by omega)]; omega), byte_ofNat _ (by omega), byte_ofNat _ (by omega), byte_ofNat _ (by omega),
          show (0xE0 + c / 4096 - 0xE0) * 4096 + (0x80 + c / 64 % 64 - 0x80) * 64 + (0x80 + c % 64 - 0x80) = c by omega]
        rw [e]
        exact ok
      · have e : utf8 c = [BitVec.ofNat 8 (0xF0 + c / 262144), BitVec.ofNat 8 (0x80 + c / 4096 % 64), BitVec.ofNat 8 (0x80 + c / 64 % 64),
            BitVec.ofNat 8 (0x80 + c % 64)] := by
          unfold utf8; rw [if_neg a1, if_neg a2, if_neg a3]
        have ok := ok _ c 4 rfl (by rw [e]; rfl) rfl
        rw [e] at ok ⊢
        simp only [List.cons_append, List.nil_append] at ok ⊢
        unfold firstPoint
        simp only
        rw [if_neg (by rw [byte_ofNat _ (by omega)]; omega), if_neg (by rw [byte_ofNat _ (by omega)]; omega),
          if_neg (by rw [byte_ofNat _ (by omega)]; omega), byte_ofNat _ (by omega), byte_ofNat _ (by omega), byte_ofNat _ (by omega),
          byte_ofNat _ (by omega),
          show (0xF0 + c / 262144 - 0xF0) * 262144 + (0x80 + c / 4096 % 64 - 0x80) * 4096 + (0x80 + c / 64 % 64 - 0x80) * 64 +
            (0x80 + c % 64 - 0x80) = c by omega]
        rw [e]
        exact ok

theorem fromBytes_utf8 (cs : List Nat) (h : ∀ c ∈ cs, IsScalar c) (n : Nat) (hn : (cs.flatMap utf8).length ≤ n) :
    fromBytes n (cs.flatMap utf8) = some (cs.flatMap utf16) := by
  induction cs generalizing n with
  | nil => cases n <;> rfl
  | cons c cs ih =>
    have hne : utf8 c ≠ [] := by
      unfold utf8
      repeat' split
      all_goals simp
    have hl : 0 < (utf8 c).length := List.length_pos_of_ne_nil hne
    simp only [List.flatMap_cons, List.length_append] at hn ⊢
    obtain ⟨b, r, hb⟩ : ∃ b r, utf8 c = b :: r := by
      cases e : utf8 c with
      | nil => exact absurd e hne
      | cons b r => exact ⟨b, r, rfl⟩
    cases n with
    | zero => omega
    | succ n =>
      have hf := firstPoint_utf8 c (h c (by simp)) (cs.flatMap utf8)
      have ih := ih (fun x hx => h x (by simp [hx])) n (by omega)
      have hd : (utf8 c ++ cs.flatMap utf8).drop (utf8 c).length = cs.flatMap utf8 := List.drop_left
      rw [hb] at hf hd ⊢
      rw [List.cons_append, fromBytes]
      · rw [List.cons_append] at hf hd
        rw [hf, Option.bind_some]
        simp only [hd, ih, Option.map_some]
      · nofun

/-- A legible text comes back from its bytes, which have neither a null nor a carriage return. -/
theorem attr_back {t : Txt} (h : Legible t) : ∃ v, attrOut t = some v ∧ attrIn v = some t ∧ Xml.Spec.Clean v ∧ Octets v := by
  obtain ⟨cs, hcs, rfl⟩ := h
  refine ⟨charsOf (cs.flatMap utf8), ?_, ?_, ⟨?_, ?_⟩, chars_small _⟩
  · unfold attrOut
    rw [toBytes_utf16 cs (fun c hc => ⟨(hcs c hc).1, (hcs c hc).2.1⟩)]
    rfl
  · unfold attrIn
    rw [bytes_chars]
    exact fromBytes_utf8 cs (fun c hc => (hcs c hc).1) _ (by simp [charsOf])
  all_goals
    intro hm
    obtain ⟨b, hb, he⟩ := List.mem_map.1 hm
    have := congrArg Char.toNat he
    rw [char_small _ (by have := b.isLt; omega)] at this
  · refine flat_byte_ne cs 13 (by omega) (fun c hc => ⟨(hcs c hc).1.1, (hcs c hc).2.2⟩) ?_
    have e : b = BitVec.ofNat 8 13 := BitVec.eq_of_toNat_eq (by rw [this]; rfl)
    rw [← e]; exact hb
  · refine flat_byte_ne cs 0 (by omega) (fun c hc => ⟨(hcs c hc).1.1, (hcs c hc).2.1⟩) ?_
    have e : b = BitVec.ofNat 8 0 := BitVec.eq_of_toNat_eq (by rw [this]; rfl)
    rw [← e]; exact hb

/-! ### Elements -/

mutual
/-- The names are names of XML and bytes, the attributes are different, the texts are legible. -/
def Sound : Elem → Prop
  | .mk n as ks => Xml.Spec.Name n.toList ∧ Octets n.toList ∧
      (∀ a ∈ as, Xml.Spec.Name a.1.toList ∧ Octets a.1.toList ∧ Legible a.2) ∧ (as.map (·.1)).Nodup ∧ Sounds ks

/-- All of a list. -/
def Sounds : List Elem → Prop
  | [] => True
  | e :: r => Sound e ∧ Sounds r
end

mutual
/-- All texts of an element are bytes. -/
def OctetXml : Scene.Xml → Prop
  | .elem n as t ks => Octets n ∧ (∀ a ∈ as, Octets a.1 ∧ Octets a.2) ∧ Octets t ∧ OctetXmls ks

/-- All of a list. -/
def OctetXmls : List Scene.Xml → Prop
  | [] => True
  | x :: r => OctetXml x ∧ OctetXmls r
end

theorem attrs_back : ∀ (as : Attrs), (∀ a ∈ as, Xml.Spec.Name a.1.toList ∧ Octets a.1.toList ∧ Legible a.2) → (as.map (·.1)).Nodup →
    ∃ xs, attrsOut as = some xs ∧ attrsIn xs = some as ∧ (∀ x ∈ xs, Xml.Spec.Name x.1 ∧ Xml.Spec.Clean x.2) ∧ (xs.map (·.1)).Nodup ∧
      (∀ x ∈ xs, Octets x.1 ∧ Octets x.2) ∧ xs.map (·.1) = as.map (·.1.toList)
  | [], _, _ => ⟨[], rfl, rfl, by simp, by simp, by simp, rfl⟩
  | (a, t) :: as, h, hn => by
    obtain ⟨h1, h2, h3⟩ := h (a, t) (by simp)
    simp only at h1 h2 h3
    obtain ⟨v, v1, v2, v3, v4⟩ := attr_back h3
    simp only [List.map_cons, List.nodup_cons] at hn
    obtain ⟨xs, x1, x2, x3, x4, x5, x6⟩ := attrs_back as (fun a ha => h a (by simp [ha])) hn.2
    refine ⟨(a.toList, v) :: xs, ?_, ?_, ?_, ?_, ?_, ?_⟩
    · simp [attrsOut, v1, x1]
    · simp [attrsIn, v2, x2]
    · intro x hx
      rcases List.mem_cons.1 hx with rfl | hx
      · exact ⟨h1, v3⟩
      · exact x3 x hx
    · simp only [List.map_cons, List.nodup_cons]
      refine ⟨?_, x4⟩
      rw [x6]
      intro hm
      obtain ⟨b, hb, e⟩ := List.mem_map.1 hm
      exact hn.1 (List.mem_map.2 ⟨b, hb, String.toList_inj.1 e⟩)
    · intro x hx
      rcases List.mem_cons.1 hx with rfl | hx
      · exact ⟨h2, v4⟩
      · exact x5 x hx
    · simp [x6]

mutual
theorem elem_back : ∀ (e : Elem), Sound e → ∃ x, elemOut e = some x ∧ elemIn x = some e ∧ Xml.Spec.Plain x ∧ OctetXml x ∧
    Xml.Spec.levels x + 1 = e.depth ∧ (∃ as ks, x = .elem e.name.toList as [] ks)
  | .mk n as ks, h => by
    rw [Sound] at h
    obtain ⟨h1, h2, h3, h4, h5⟩ := h
    obtain ⟨xs, x1, x2, x3, x4, x5, -⟩ := attrs_back as h3 h4
    obtain ⟨ys, y1, y2, y3, y4, y5⟩ := elems_back ks h5
    refine ⟨.elem n.toList xs [] ys, by simp [elemOut, x1, y1], by simp [elemIn, x2, y2], ?_, ?_, ?_, xs, ys, rfl⟩
    · rw [Xml.Spec.Plain]
      exact ⟨h1, x3, x4, by simp [Xml.Spec.Clean], .inl rfl, y3⟩
    · rw [OctetXml]
      exact ⟨h2, x5, octets_nil, y4⟩
    · rw [Xml.Spec.levels, Elem.depth]
      rcases y5 with ⟨y5, y6⟩ | ⟨rfl, rfl⟩
      · rw [if_neg (by simpa using y6)]; omega
      · rw [if_pos (by simp), depths]

theorem elems_back : ∀ (es : List Elem), Sounds es → ∃ xs, elemsOut es = some xs ∧ elemsIn xs = some es ∧ Xml.Spec.Plains xs ∧ OctetXmls xs ∧
    ((Xml.Spec.levelsAll xs + 1 = depths es ∧ xs ≠ []) ∨ (xs = [] ∧ es = []))
  | [], _ => ⟨[], rfl, rfl, trivial, trivial, .inr ⟨rfl, rfl⟩⟩
  | e :: es, h => by
    rw [Sounds] at h
    obtain ⟨x, x1, x2, x3, x4, x5, -⟩ := elem_back e h.1
    obtain ⟨xs, y1, y2, y3, y4, y5⟩ := elems_back es h.2
    refine ⟨x :: xs, by simp [elemsOut, x1, y1], by simp [elemsIn, x2, y2], ⟨x3, y3⟩, ⟨x4, y4⟩, .inl ⟨?_, by simp⟩⟩
    rw [Xml.Spec.levelsAll, depths]
    rcases y5 with ⟨y5, -⟩ | ⟨rfl, rfl⟩
    · omega
    · rw [Xml.Spec.levelsAll, depths]; omega
end

/-! ### The text of the document -/

mutual
/-- All texts of a node are bytes. -/
def OctetNode : Xml.Node → Prop
  | .elem n as ks => Octets n ∧ (∀ a ∈ as, Octets a.1 ∧ Octets a.2) ∧ OctetNodes ks
  | .text t => Octets t
  | .cdata t => Octets t
  | .comment t => Octets t
  | .decl t => Octets t
  | .unknown t => Octets t

/-- All of a list. -/
def OctetNodes : List Xml.Node → Prop
  | [] => True
  | x :: r => OctetNode x ∧ OctetNodes r
end

theorem octets_esc (b : Bool) {s : Xml.Str} (h : Octets s) : Octets (Xml.esc b s) := by
  intro c hc
  obtain ⟨d, hd, hc⟩ := List.mem_flatMap.1 hc
  unfold Xml.escChar at hc
  have hd := h d hd
  split at hc
  · rename_i e he
    have hm := List.mem_of_find?_eq_some he
    split at hc
    · have : ∀ e ∈ Xml.entities, Octets ('&' :: e.1 ++ [';']) := by decide
      exact this e hm c hc
    · rw [List.mem_singleton] at hc; rw [hc]; exact hd
  · rw [List.mem_singleton] at hc; rw [hc]; exact hd

theorem octets_spaces (n : Nat) : Octets (Xml.spaces n) := by
  intro c hc
  unfold Xml.spaces at hc
  rw [List.mem_replicate] at hc
  rw [hc.2]; decide

theorem octets_seal {s : Xml.Printer} (h : Octets s.out) : Octets (Xml.sealTag s).out := by
  unfold Xml.sealTag
  split
  · exact octets_append.2 ⟨h, by decide⟩
  · exact h

theorem octets_prepare {s : Xml.Printer} (h : Octets s.out) : Octets (Xml.prepare s).out := by
  unfold Xml.prepare
  refine octets_append.2 ⟨octets_seal h, ?_⟩
  split
  · exact octets_spaces _
  · split
    · exact octets_cons.2 ⟨by decide, octets_spaces _⟩
    · exact octets_nil

theorem octets_pushText {s : Xml.Printer} {v : Xml.Str} (h : Octets s.out) (hv : Octets v) : Octets (Xml.pushText s v).out := by
  unfold Xml.pushText
  exact octets_append.2 ⟨octets_seal h, hv⟩

theorem octets_pushMarkup {s : Xml.Printer} {v : Xml.Str} (h : Octets s.out) (hv : Octets v) : Octets (Xml.pushMarkup s v).out := by
  unfold Xml.pushMarkup
  exact octets_append.2 ⟨octets_prepare h, hv⟩

mutual
theorem octets_print : ∀ (x : Xml.Node) (s : Xml.Printer), OctetNode x → Octets s.out → Octets (Xml.printNode s x).out
  | .elem n as ks, s, hx, h => by
    rw [OctetNode] at hx
    rw [Xml.printNode]
    have ho : Octets (Xml.openElement s n as).out := by
      unfold Xml.openElement
      refine octets_append.2 ⟨?_, ?_⟩
      · exact octets_append.2 ⟨octets_prepare h, octets_cons.2 ⟨by decide, hx.1⟩⟩
      · intro c hc
        obtain ⟨a, ha, hc⟩ := List.mem_flatMap.1 hc
        have hs := hx.2.1 a ha
        have : Octets (Xml.attrText a) := by
          unfold Xml.attrText
          exact octets_append.2 ⟨octets_append.2 ⟨octets_append.2 ⟨octets_cons.2 ⟨by decide, hs.1⟩, by decide⟩, octets_esc _ hs.2⟩, by decide⟩
        exact this c hc
    have hk := octets_prints ks _ hx.2.2 ho
    unfold Xml.closeElement
    refine octets_append.2 ⟨octets_append.2 ⟨hk, ?_⟩, ?_⟩
    · split
      · decide
      · refine octets_append.2 ⟨octets_append.2 ⟨octets_append.2 ⟨?_, by decide⟩, hx.1⟩, by decide⟩
        split
        · exact octets_cons.2 ⟨by decide, octets_spaces _⟩
        · exact octets_nil
    · split <;> decide
  | .text t, s, hx, h => by rw [Xml.printNode]; exact octets_pushText h (octets_esc _ (by rw [OctetNode] at hx; exact hx))
  | .cdata t, s, hx, h => by
    rw [OctetNode] at hx
    rw [Xml.printNode]; exact octets_pushText h (octets_append.2 ⟨octets_append.2 ⟨by decide, hx⟩, by decide⟩)
  | .comment t, s, hx, h => by
    rw [OctetNode] at hx
    rw [Xml.printNode]; exact octets_pushMarkup h (octets_append.2 ⟨octets_append.2 ⟨by decide, hx⟩, by decide⟩)
  | .decl t, s, hx, h => by
    rw [OctetNode] at hx
    rw [Xml.printNode]; exact octets_pushMarkup h (octets_append.2 ⟨octets_append.2 ⟨by decide, hx⟩, by decide⟩)
  | .unknown t, s, hx, h => by
    rw [OctetNode] at hx
    rw [Xml.printNode]; exact octets_pushMarkup h (octets_append.2 ⟨octets_append.2 ⟨by decide, hx⟩, by decide⟩)

theorem octets_prints : ∀ (xs : List Xml.Node) (s : Xml.Printer), OctetNodes xs → Octets s.out → Octets (Xml.printNodes s xs).out
  | [], s, _, h => by rw [Xml.printNodes]; exact h
  | x :: r, s, hx, h => by
    rw [OctetNodes] at hx
    rw [Xml.printNodes]
    exact octets_prints r _ hx.2 (octets_print x s hx.1 h)
end

mutual
theorem octets_ofXml : ∀ (x : Scene.Xml), OctetXml x → OctetNode (Xml.ofXml x)
  | .elem n as t ks, h => by
    rw [OctetXml] at h
    rw [Xml.ofXml, OctetNode]
    refine ⟨h.1, h.2.1, ?_⟩
    have hk := octets_ofXmls ks h.2.2.2
    split
    · rw [List.nil_append]; exact hk
    · rw [List.singleton_append, OctetNodes, OctetNode]; exact ⟨h.2.2.1, hk⟩

theorem octets_ofXmls : ∀ (xs : List Scene.Xml), OctetXmls xs → OctetNodes (Xml.ofXmls xs)
  | [], _ => by rw [Xml.ofXmls, OctetNodes]; trivial
  | x :: r, h => by
    rw [OctetXmls] at h
    rw [Xml.ofXmls, OctetNodes]
    exact ⟨octets_ofXml x h.1, octets_ofXmls r h.2⟩
end

/-- The text of a document of bytes is a text of bytes. -/
theorem octets_text {x : Scene.Xml} (h : OctetXml x) : Octets (Xml.writeXmlText x) := by
  have h0 : Octets (Xml.pushMarkup {} ("<?".toList ++ Xml.header ++ "?>".toList)).out := octets_pushMarkup octets_nil (by decide)
  have h1 := octets_prints [Xml.ofXml x] _ (by rw [OctetNodes]; exact ⟨octets_ofXml x h, trivial⟩) h0
  intro c hc
  exact h1 c (List.dropLast_subset _ hc)

end Verif.Gdtf
