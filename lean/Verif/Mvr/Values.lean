import Verif.Mvr.Inner
import Verif.Real.Props
import Verif.Text.Props
import Verif.Str.Props
import Verif.Scene.Lemmas

/-!
# The values of MVR objects, one by one
-/

namespace Verif.Mvr

open Verif.Str Verif.Text Verif.Real Verif.Dmx Verif.Enum Spec Inner

theorem near_reread (F : Fl) (x : Dbl) (h : 0 ≤ x.mag) : Near x (atof F (printReal x)) := by
  obtain ⟨h1, h2⟩ := C47_error F x h
  unfold Near signed
  rw [h1, abs_sub_comm] at *
  cases x.neg with
  | false => simpa [abs_sub_comm] using h2
  | true => simpa [abs_sub_comm, neg_add_eq_sub] using h2

theorem near_of_le (x y : Dbl) (h : 0 ≤ x.mag) (he : |signed x - signed y| ≤ 1 / 2000000) : Near x y := by
  unfold Near
  have : (0 : ℚ) ≤ (x.mag + 1) / 2 ^ 53 := by positivity
  linarith

theorem near_refl (x : Dbl) (h : 0 ≤ x.mag) : Near x x := near_of_le x x h (by simp)

theorem integer_back (w : Nat) (hw : w = 8 ∨ w = 32) (i : Int) (h1 : -(2 ^ (w - 1) : Int) ≤ i) (h2 : i < 2 ^ (w - 1)) (old : Int) :
    readSigned w (writeInteger i) old = some ⟨true, false, i⟩ := by
  unfold readSigned writeInteger
  have h3 : -2147483648 ≤ i ∧ i ≤ 2147483647 := by
    rcases hw with rfl | rfl <;> norm_num at h1 h2 <;> omega
  rw [if_neg (intText_ne_nil i), atoi_intText i h3.1 h3.2]
  simp only [Option.map_some]
  rw [toSint_small w (by rcases hw with rfl | rfl <;> decide) i h1 h2]

/-! ### Custom commands -/

theorem occurs_char {sub s : List Char} {q i : Nat} (h : OccursAt sub s q) {c : Char} (hi : sub[i]? = some c) :
    s[q + i]? = some c := by
  obtain ⟨t, ht⟩ := h
  have : (s.drop q)[i]? = some c := by
    rw [← ht, List.getElem?_append_left (List.getElem?_eq_some_iff.1 hi).1, hi]
  rwa [List.getElem?_drop] at this

theorem occurs_infix {sub s : List Char} {q n : Nat} (h : OccursAt sub s q) (hn : q + sub.length ≤ n) : sub <:+: s.take n := by
  obtain ⟨t, ht⟩ := h
  refine ⟨s.take q, (s.drop (q + sub.length)).take (n - (q + sub.length)), ?_⟩
  have e : s = s.take q ++ (sub ++ t) := by rw [ht, List.take_append_drop]
  by_cases hq : q ≤ s.length
  · have l : (s.take q).length = q := by simp [hq]
    have d : s.drop (q + sub.length) = t := by
      rw [← List.drop_drop, ← ht, List.drop_left]
    rw [d]
    generalize s.take q = a at *
    subst e
    rw [List.take_append, List.take_append, l, List.take_of_length_le (by omega : a.length ≤ n),
      List.take_of_length_le (by omega : sub.length ≤ n - q), List.append_assoc, show n - q - sub.length = n - (q + sub.length) by omega]
  · have : s.drop q = [] := List.drop_eq_nil_of_le (by omega)
    rw [this] at ht
    have : sub = [] := by
      cases sub with
      | nil => rfl
      | cons _ _ => simp at ht
    subst this
    rw [List.drop_eq_nil_of_le (by simp; omega), List.take_of_length_le (by omega : s.length ≤ q),
      List.take_of_length_le (by simp at hn; omega : s.length ≤ n)]
    simp

theorem pattern_length : "/percent".toList.length = 8 := rfl

theorem pattern_slash : ∀ i, "/percent".toList[i]? = some '/' → i = 0 := by
  intro i h
  rw [show "/percent".toList = ['/', 'p', 'e', 'r', 'c', 'e', 'n', 't'] from rfl] at h
  match i with
  | 0 => rfl
  | 1 | 2 | 3 | 4 | 5 | 6 | 7 => simp at h
  | i + 8 => simp at h

theorem pattern_no (c : Char) (h : c ∉ "/percent".toList) (i : Nat) : "/percent".toList[i]? ≠ some c :=
  fun he => h (List.mem_of_getElem? he)

/-- Without the mark there is no "/percent". -/
theorem find_plain (fn r : Text) (h : ¬ "/percent".toList <:+: fn) (hr : '/' ∉ r) :
    find (fn ++ ',' :: r) "/percent".toList = none := by
  rw [C38_find_none]
  right
  intro q _ ho
  have h0 := occurs_char ho (i := 0) (c := '/') rfl
  by_cases hq : q + 8 ≤ fn.length
  · have := occurs_infix ho (n := fn.length) (by rw [pattern_length]; exact hq)
    rw [List.take_left] at this
    exact h this
  · by_cases hq2 : q ≤ fn.length
    · have hi : fn.length - q < 8 := by omega
      have hx : "/percent".toList[fn.length - q]? = some ("/percent".toList[fn.length - q]'(by rw [pattern_length]; exact hi)) :=
        List.getElem?_eq_getElem _
      have h1 := occurs_char ho hx
      rw [show q + (fn.length - q) = fn.length by omega, List.getElem?_append_right (Nat.le_refl _)] at h1
      simp only [Nat.sub_self, List.getElem?_cons_zero] at h1
      exact pattern_no ',' (by decide) _ (by rw [hx]; exact h1.symm)
    · rw [Nat.add_zero, List.getElem?_append_right (by omega)] at h0
      obtain ⟨m, hm⟩ : ∃ m, q - fn.length = m + 1 := ⟨q - fn.length - 1, by omega⟩
      rw [hm, List.getElem?_cons_succ] at h0
      exact hr (List.mem_of_getElem? h0)

/-- The mark is found where the function ends. -/
theorem find_marked (fn r : Text) (h : ¬ "/percent".toList <:+: fn) :
    find (fn ++ ("/percent".toList ++ r)) "/percent".toList = some fn.length := by
  rw [C38_find _ _ (by decide)]
  refine ⟨Nat.zero_le _, ⟨r, by rw [List.drop_left]⟩, ?_⟩
  intro q _ hq ho
  by_cases hq8 : q + 8 ≤ fn.length
  · have := occurs_infix ho (n := fn.length) (by rw [pattern_length]; exact hq8)
    rw [List.take_left] at this
    exact h this
  · have hi : fn.length - q < 8 := by omega
    have hx : "/percent".toList[fn.length - q]? = some ("/percent".toList[fn.length - q]'(by rw [pattern_length]; exact hi)) :=
      List.getElem?_eq_getElem _
    have h1 := occurs_char ho hx
    rw [show q + (fn.length - q) = fn.length by omega, List.getElem?_append_right (Nat.le_refl _), Nat.sub_self] at h1
    have h2 : ("/percent".toList ++ r)[0]? = some '/' := rfl
    rw [h2] at h1
    have := pattern_slash _ (by rw [hx]; exact h1.symm)
    omega

theorem trimRight_id (s : Text) (blank : Char → Bool) (c : Char) (hc : blank c = false) : trimRight blank (s ++ [c]) = s ++ [c] := by
  unfold trimRight
  have := lastNotBlank_take blank (s ++ [c]) (s ++ [c]).length (Nat.le_refl _)
  refine Eq.trans this ?_
  rw [List.take_length, List.reverse_append, List.reverse_singleton, List.singleton_append, List.dropWhile_cons, hc]
  simp

theorem printReal_last (x : Dbl) : ∃ s c, printReal x = s ++ [c] ∧ isDigit c = true := by
  refine ⟨(printReal x).dropLast, (printReal x).getLast (printReal_ne_nil x), (List.dropLast_append_getLast _).symm, ?_⟩
  rcases printReal_chars x _ (List.getLast_mem (printReal_ne_nil x)) with h | h | h
  · exact h
  all_goals
    exfalso
    have hl : (printReal x).getLast? = some (pad6 (micro x % 1000000)).getLast! := by
      unfold printReal pad6
      simp
    rw [List.getLast?_eq_some_getLast (printReal_ne_nil x)] at hl
    rw [Option.some.inj hl] at h
    have hd := pad6_digits (micro x % 1000000) (pad6 (micro x % 1000000)).getLast! (by unfold pad6; simp)
    rw [h] at hd
    exact absurd hd (by decide)

theorem value_part (pre : Text) (x : Dbl) : valueText (pre ++ ' ' :: printReal x) = printReal x := by
  obtain ⟨a, c, ha, hc⟩ := printReal_last x
  have hcb : (c == ' ' || c == '\t') = false := by
    rw [Bool.or_eq_false_iff]
    constructor <;> (rw [beq_eq_false_iff_ne]; rintro rfl; exact absurd hc (by decide))
  have ht : trimRight (fun c => c == ' ' || c == '\t') (pre ++ ' ' :: printReal x) = pre ++ ' ' :: printReal x := by
    rw [ha, show pre ++ ' ' :: (a ++ [c]) = (pre ++ ' ' :: a) ++ [c] by simp]
    exact trimRight_id _ _ c hcb
  unfold valueText
  simp only [ht]
  have hr : reverseFind (pre ++ ' ' :: printReal x) " ".toList = some pre.length := by
    rw [C38_reverseFind _ _ (by decide)]
    refine ⟨⟨printReal x, by rw [List.drop_left]; rfl⟩, ?_⟩
    intro q hq ho
    have h0 := occurs_char ho (i := 0) (c := ' ') rfl
    rw [Nat.add_zero, List.getElem?_append_right (by omega)] at h0
    obtain ⟨m, hm⟩ : ∃ m, q - pre.length = m + 1 := ⟨q - pre.length - 1, by omega⟩
    rw [hm, List.getElem?_cons_succ] at h0
    exact printReal_no x ' ' (by decide) (by decide) (by decide) (List.mem_of_getElem? h0)
  rw [hr]
  simp only [rightC]
  have hl : (pre ++ ' ' :: printReal x).length = pre.length + 1 + (printReal x).length := by simp; omega
  rw [if_neg (by omega), show (pre ++ ' ' :: printReal x).length - ((pre ++ ' ' :: printReal x).length - pre.length - 1) = pre.length + 1 by omega,
    List.drop_append]
  simp

/-- A custom command comes back. -/
theorem command_back (F : Fl) (fn : Text) (p : Bool) (x : Dbl) (h1 : ¬ "/percent".toList <:+: fn) (h2 : p = false → ',' ∉ fn) :
    readCommand F (writeCommand fn p x) = .command fn p (atof F (printReal x)) := by
  unfold writeCommand
  cases p with
  | false =>
    have e : fn ++ (if false = true then "/percent,f ".toList else ",f ".toList) ++ printReal x = fn ++ ',' :: ('f' :: ' ' :: printReal x) := by
      simp
    have e2 : fn ++ ',' :: ('f' :: ' ' :: printReal x) = (fn ++ [',', 'f']) ++ ' ' :: printReal x := by simp
    rw [e]
    have hf := find_plain fn ('f' :: ' ' :: printReal x) h1 (by
      intro hm
      rcases List.mem_cons.1 hm with hm | hm
      · cases hm
      · rcases List.mem_cons.1 hm with hm | hm
        · cases hm
        · exact printReal_no x '/' (by decide) (by decide) (by decide) hm)
    have hc : find (fn ++ ',' :: ('f' :: ' ' :: printReal x)) ",".toList = some fn.length := by
      rw [show ",".toList = [','] from rfl, find_single, findCh_split ',' fn _ (h2 rfl)]
    have hv := value_part (fn ++ [',', 'f']) x
    rw [← e2] at hv
    unfold readCommand
    simp only [hf, hc, leftFound, leftC, hv, List.take_left, Option.isSome_none]
  | true =>
    have e : fn ++ (if true = true then "/percent,f ".toList else ",f ".toList) ++ printReal x =
        fn ++ ("/percent".toList ++ (',' :: 'f' :: ' ' :: printReal x)) := by
      rw [if_pos rfl, show "/percent,f ".toList = "/percent".toList ++ [',', 'f', ' '] from rfl]
      simp
    have e2 : fn ++ ("/percent".toList ++ (',' :: 'f' :: ' ' :: printReal x)) = (fn ++ "/percent".toList ++ [',', 'f']) ++ ' ' :: printReal x := by
      simp
    rw [e]
    have hf := find_marked fn (',' :: 'f' :: ' ' :: printReal x) h1
    have hv := value_part (fn ++ "/percent".toList ++ [',', 'f']) x
    rw [← e2] at hv
    unfold readCommand
    simp only [hf, leftFound, leftC, hv, List.take_left, Option.isSome_some]

theorem toSint64_small (n : Nat) (h : n < 2147483648) : toSint 64 (n : Int) = n :=
  toSint_small 64 (by decide) (n : Int) (by norm_num) (by norm_num; omega)

theorem toSint32_small (n : Nat) (h : n < 2147483648) : toSint 32 (n : Int) = n :=
  toSint_small 32 (by decide) (n : Int) (by norm_num) (by norm_num; omega)

theorem toUint64_small (n : Nat) (h : n < 2147483648) : toUint 64 (n : Int) = n :=
  toUint_small 64 n (by omega)

theorem size_back (n : Nat) (h : n < 2147483648) : readUnsigned 64 (writeInteger (n : Int)) 0 = some ⟨true, false, n⟩ :=
  C46_unsigned 64 n 0 (by omega) (by omega)

theorem nat_of {i : Int} (h : 0 ≤ i ∧ i < 2 ^ 31) : ∃ n : Nat, i = n ∧ n < 2147483648 := by
  obtain ⟨n, rfl⟩ := Int.eq_ofNat_of_zero_le h.1
  have h2 := h.2
  norm_num at h2
  exact ⟨n, rfl, by omega⟩

theorem dec_size (F : Fl) (old : Val) (t : Text) (n : Nat) (h : readUnsigned 64 t 0 = some ⟨true, false, n⟩) :
    dec F .size old t = .int n := by
  rw [dec, h]; rfl

theorem dec_sizeAs32 (F : Fl) (old : Val) (t : Text) (n : Nat) (h : readUnsigned 64 t 0 = some ⟨true, false, n⟩) :
    dec F .sizeAs32 old t = .int n := by
  rw [dec, h]; rfl

theorem dec_sizeFrom32 (F : Fl) (old : Val) (t : Text) (i : Int) (h : readSigned 32 t 0 = some ⟨true, false, i⟩) :
    dec F .sizeFrom32 old t = .int (toUint 64 i) := by
  rw [dec, h]; rfl

/-- Every value that `Kept` allows comes back, whatever was in the member before. -/
theorem value_back (F : Fl) (c : Codec) (v old : Val) (h : Kept c v) : Close v (dec F c old ((enc c v).getD [])) := by
  cases c <;> cases v <;> simp only [Kept] at h
  case optText.text t =>
    simp only [enc, dec]
    by_cases ht : t = []
    · simp [ht, Close]
    · simp [ht, Close]
  case text.text t => simp [enc, dec, Close]
  case uuid.uuid u => simp [enc, dec, Close, Scene.guid_convertToText u h]
  case sint.int w i =>
    obtain ⟨hw, h1, h2⟩ := h
    simp [enc, dec, integer_back w hw i h1 h2, result, Close]
  case uint32.int i =>
    obtain ⟨n, rfl, hn⟩ := nat_of h
    simp [enc, dec, C46_unsigned 32 n 0 (by norm_num; omega) (by omega), result, Close]
  case size.int i =>
    obtain ⟨n, rfl, hn⟩ := nat_of h
    rw [enc, toSint64_small n hn, Option.getD_some, dec_size F old _ n (size_back n hn)]
    exact rfl
  case sizeAs32.int i =>
    obtain ⟨n, rfl, hn⟩ := nat_of h
    rw [enc, toSint32_small n hn, Option.getD_some, dec_sizeAs32 F old _ n (size_back n hn)]
    exact rfl
  case sizeFrom32.int i =>
    obtain ⟨n, rfl, hn⟩ := nat_of h
    rw [enc, toSint64_small n hn, Option.getD_some, dec_sizeFrom32 F old _ n (C46_signed (n : Int) 0 (by omega) (by omega)), toUint64_small n hn]
    exact rfl
  case flag.flag b => simp [enc, dec, Close, (C18_bool b []).1]
  case real.real x => simp [enc, dec, Close, printReal_ne_nil, near_reread F x h]
  case vec.vec v =>
    simp [enc, dec, Close, C47_vector, result, reread, NearV, near_reread F v.x h.1, near_reread F v.y h.2.1, near_reread F v.z h.2.2]
  case color.color v =>
    simp [enc, dec, Close, C47_color, result, reread, NearV, near_reread F v.x h.1, near_reread F v.y h.2.1, near_reread F v.z h.2.2]
  case matrix.matrix m =>
    obtain ⟨⟨a1, a2, a3⟩, ⟨b1, b2, b3⟩, ⟨c1, c2, c3⟩, d1, d2, d3⟩ := h
    simp [enc, dec, Close, C19_mvr, result, reread, NearV, Mat.map, Mat.mapV, near_reread F _ a1, near_reread F _ a2, near_reread F _ a3,
      near_reread F _ b1, near_reread F _ b2, near_reread F _ b3, near_reread F _ c1, near_reread F _ c2, near_reread F _ c3,
      near_reread F _ d1, near_reread F _ d2, near_reread F _ d3]
  case source.source s =>
    simp [enc, dec, Close, (C18_SourceType.roundtrip s (writeSourceType s) .cNDI rfl)]
  case scale.scale s =>
    simp [enc, dec, Close, (C18_ScaleHandlingType.roundtrip s (writeScaleHandlingType s) .cScaleKeepRatio rfl)]
  case transmission.transmission s =>
    simp [enc, dec, Close, (C18_TransmissionType.roundtrip s (writeTransmissionType s) .cAnycast rfl)]
  case command.command fn p x =>
    simp [enc, dec, Close, command_back F fn p x h.1 h.2.1, near_reread F x h.2.2]

end Verif.Mvr
