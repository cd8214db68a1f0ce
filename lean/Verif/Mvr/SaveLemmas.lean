import Verif.Mvr.SaveModel
import Verif.Mvr.SaveSpec
import Verif.Mvr.ForeignLemmas
import Verif.Mvr.Checks

/-!
# What reading a description leaves in the members of a scene
-/

namespace Verif.Mvr

open Verif.Str Verif.Text Verif.Real Verif.Dmx Spec

/-! ### Values -/

theorem digits_small : ∀ (t : Text) (acc : Nat), digitsVal acc t + 1 ≤ (acc + 1) * 10 ^ t.length
  | [], acc => by simp [digitsVal]
  | c :: t, acc => by
    rw [digitsVal]
    split
    · rename_i hc
      have ih := digits_small t (acc * 10 + digitVal c)
      have hd : digitVal c ≤ 9 := by
        unfold isDigit at hc
        unfold digitVal
        simp only [Bool.and_eq_true, decide_eq_true_eq] at hc
        have h2 : c.toNat ≤ '9'.toNat := hc.2
        have : '9'.toNat = 57 := rfl
        have : '0'.toNat = 48 := rfl
        omega
      have h1 : (acc * 10 + digitVal c + 1) * 10 ^ t.length ≤ ((acc + 1) * 10) * 10 ^ t.length := Nat.mul_le_mul_right _ (by omega)
      rw [List.length_cons, Nat.pow_succ']
      calc _ ≤ _ := ih
        _ ≤ _ := h1
        _ = _ := by rw [Nat.mul_assoc]
    · have : 1 ≤ 10 ^ (t.length + 1) := Nat.one_le_pow _ _ (by omega)
      rw [List.length_cons]
      calc acc + 1 = (acc + 1) * 1 := by omega
        _ ≤ _ := Nat.mul_le_mul_left _ this

theorem digits_short {t : Text} (h : t.length ≤ 9) : digitsVal 0 t ≤ 999999999 := by
  have h1 := digits_small t 0
  have h2 : 10 ^ t.length ≤ 10 ^ 9 := Nat.pow_le_pow_right (by omega) h
  omega

theorem drop_short {t : Text} (h : Short t) : (t.dropWhile isSpace).length ≤ 9 :=
  Nat.le_trans (List.dropWhile_suffix _).length_le h

theorem sign_short {t : Text} (h : t.length ≤ 9) : -999999999 ≤ signVal t ∧ signVal t ≤ 999999999 := by
  unfold signVal
  split
  · rename_i r
    have := digits_short (t := r) (by simp only [List.length_cons] at h; omega)
    omega
  · rename_i r
    have := digits_short (t := r) (by simp only [List.length_cons] at h; omega)
    omega
  · have := digits_short h
    omega

theorem sign_plus {t : Text} (h : t.length ≤ 9) (hm : '-' ∉ t) : 0 ≤ signVal t := by
  unfold signVal
  split
  · simp at hm
  · omega
  · omega

theorem atoi_short {t : Text} (h : Short t) : ∃ i, atoi t = some i ∧ -999999999 ≤ i ∧ i ≤ 999999999 ∧ ('-' ∉ t → 0 ≤ i) := by
  have h1 := sign_short (drop_short h)
  refine ⟨_, ?_, h1.1, h1.2, fun hm => sign_plus (drop_short h) (fun hx => hm ((List.dropWhile_suffix _).subset hx))⟩
  unfold atoi
  rw [if_pos (by omega)]

theorem guid_length (t : Text) : (Scene.guid t).length = 16 := by
  have ht : ∀ s, (Uuid.ofText s []).length = 16 := by
    intro s
    unfold Uuid.ofText Uuid.fromString
    simp only
    split <;> (try split) <;> simp_all [Uuid.zero]
    all_goals (try split) <;> simp
  unfold Scene.guid Uuid.convertFromText
  split
  · exact ht _
  · split
    · rfl
    · exact ht []

theorem scale_nonneg (t : Text) : 0 ≤ scale t := by
  unfold scale
  split
  · norm_num
  · split
    · split <;> positivity
    · norm_num

theorem decimal_nonneg (t : Text) : 0 ≤ decimalVal t := by
  unfold decimalVal
  split
  · exact mul_nonneg (by positivity) (scale_nonneg _)
  · exact mul_nonneg (by positivity) (scale_nonneg _)

theorem atof_nonneg (F : Fl) (t : Text) : 0 ≤ (atof F t).mag := by
  unfold atof
  split <;> exact F.nonneg _ (decimal_nonneg _)

theorem deserialize_nonneg (F : Fl) (s : Text) : ∃ l e, deserialize F s = some (l, e) ∧ ∀ x ∈ l, 0 ≤ x.mag := by
  obtain ⟨fs, h⟩ := fields_finish ',' (s.length + 1) s (by omega)
  refine ⟨_, _, by unfold deserialize; rw [h]; rfl, ?_⟩
  intro x hx
  obtain ⟨y, -, rfl⟩ := List.mem_map.1 hx
  exact atof_nonneg F y

/-- A point whose coordinates have absolute values. -/
def Good (v : V3) : Prop := 0 ≤ v.x.mag ∧ 0 ≤ v.y.mag ∧ 0 ≤ v.z.mag

theorem vector_good (F : Fl) (t : Text) {old : V3} (ho : Good old) : ∃ c, readVector F t old = some c ∧ Good c.val := by
  unfold readVector
  split
  · exact ⟨_, rfl, by simp [Good, zero]⟩
  · obtain ⟨l, e, h, hl⟩ := deserialize_nonneg F (stripClose (stripOpen t).1).1
    simp only
    rw [h]
    split
    · simp_all
    · rename_i a b c e' heq
      simp only [Option.some.injEq, Prod.mk.injEq] at heq
      obtain ⟨rfl, -⟩ := heq
      exact ⟨_, rfl, hl a (by simp), hl b (by simp), hl c (by simp)⟩
    · exact ⟨_, rfl, ho⟩

theorem color_good (F : Fl) (t : Text) {old : V3} (ho : Good old) : ∃ c, readColor F old t = some c ∧ Good c.val := by
  unfold readColor
  split
  · exact ⟨_, rfl, ho⟩
  · obtain ⟨l, e, h, hl⟩ := deserialize_nonneg F t
    rw [h]
    split
    · simp_all
    · rename_i a b c e' heq
      simp only [Option.some.injEq, Prod.mk.injEq] at heq
      obtain ⟨rfl, -⟩ := heq
      exact ⟨_, rfl, hl a (by simp), hl b (by simp), hl c (by simp)⟩
    · exact ⟨_, rfl, ho⟩

/-- A matrix of such points. -/
def GoodM (m : Mat) : Prop := Good m.u ∧ Good m.v ∧ Good m.w ∧ Good m.o

theorem setRow_good {m : Mat} {i : Nat} {r : V3} (hm : GoodM m) (hr : Good r) : GoodM (m.setRow i r) := by
  obtain ⟨h1, h2, h3, h4⟩ := hm
  unfold Mat.setRow
  split <;> exact ⟨by first | exact hr | exact h1, by first | exact hr | exact h2, by first | exact hr | exact h3, by first | exact hr | exact h4⟩

theorem setOff_good {m : Mat} {i : Nat} {r : Dbl} (hm : GoodM m) (hr : 0 ≤ r.mag) : GoodM (m.setOff i r) := by
  obtain ⟨h1, h2, h3, h4⟩ := hm
  unfold Mat.setOff
  unfold Good at h4
  split <;> refine ⟨h1, h2, h3, ?_⟩ <;> unfold Good <;> simp_all

theorem lines_good (F : Fl) : ∀ (ls : List Text) (i : Nat) (st : Mat × Bool), GoodM st.1 → ∃ r, matrixLines F ls i st = some r ∧ GoodM r.1
  | [], _, st, h => ⟨st, rfl, h⟩
  | l :: t, i, (m, err), h => by
    obtain ⟨fs, e, hd, hl⟩ := deserialize_nonneg F l
    unfold matrixLines
    rw [hd]
    split
    · simp_all
    · rename_i a b c e' heq
      simp only [Option.some.injEq, Prod.mk.injEq] at heq
      obtain ⟨rfl, -⟩ := heq
      exact lines_good F t _ _ (setRow_good h ⟨hl a (by simp), hl b (by simp), hl c (by simp)⟩)
    · rename_i a b c d e' heq
      simp only [Option.some.injEq, Prod.mk.injEq] at heq
      obtain ⟨rfl, -⟩ := heq
      apply lines_good F t
      simp only
      split
      · exact setOff_good (setRow_good h ⟨hl a (by simp), hl b (by simp), hl c (by simp)⟩) (hl d (by simp))
      · exact h
    · exact lines_good F t _ _ h

theorem matrix_good (F : Fl) (t : Text) {old : Mat} (ho : GoodM old) : ∃ c, readMatrix F t old = some c ∧ GoodM c.val := by
  unfold readMatrix
  split
  · exact ⟨_, rfl, by simp [GoodM, Good, Mat.identity, zero, one]⟩
  · obtain ⟨ls, hls⟩ := groups_finish ((stripClose (stripOpen t).1).1.length + 1) (stripClose (stripOpen t).1).1 (by omega)
    simp only
    rw [hls]
    simp only
    split
    · exact ⟨_, rfl, ho⟩
    · obtain ⟨r, hr, hg⟩ := lines_good F ls 0 (old, (stripOpen t).2 || (stripClose (stripOpen t).1).2) ho
      exact ⟨_, by rw [hr]; rfl, hg⟩

theorem infix_occurs {sub s : Text} (h : sub <:+: s) : ∃ q, OccursAt sub s q := by
  obtain ⟨a, b, e⟩ := h
  refine ⟨a.length, ?_⟩
  unfold OccursAt
  rw [← e, List.append_assoc, List.drop_left]
  exact List.prefix_append _ _

/-- What is before the first occurrence does not contain the text. -/
theorem before_first {sub s : Text} (hs : sub ≠ []) {p : Nat} (h : find s sub = some p) : ¬ sub <:+: s.take p := by
  rw [C38_find s sub hs] at h
  obtain ⟨-, -, h3⟩ := h
  rintro ⟨a, b, e⟩
  have hlen : a.length < p := by
    have h0 := congrArg List.length e
    have : 0 < sub.length := List.length_pos_iff.2 hs
    simp only [List.length_append, List.length_take] at h0
    omega
  apply h3 a.length (Nat.zero_le _) hlen
  unfold OccursAt
  refine ⟨b ++ s.drop p, ?_⟩
  have : s = a ++ (sub ++ (b ++ s.drop p)) := by
    have h1 := List.take_append_drop p s
    rw [← e] at h1
    rw [← List.append_assoc, ← List.append_assoc]
    exact h1.symm
  conv => rhs; rw [this]
  rw [List.drop_left]

theorem nowhere {sub s : Text} (hs : sub ≠ []) (h : find s sub = none) : ¬ sub <:+: s := by
  rw [C38_find_none] at h
  rcases h with h | h
  · exact absurd h hs
  · intro hi
    obtain ⟨q, hq⟩ := infix_occurs hi
    exact h q (Nat.zero_le _) hq

theorem mem_infix {c : Char} {s : Text} (h : c ∈ s) : [c] <:+: s := by
  obtain ⟨a, b, rfl⟩ := List.append_of_mem h
  exact ⟨a, b, by simp⟩

theorem command_holds (F : Fl) (t : Text) : Holds .command (readCommand F t) := by
  have hp : "/percent".toList ≠ [] := by decide
  have hc : ",".toList ≠ [] := by decide
  unfold readCommand
  simp only
  cases h : find t "/percent".toList with
  | some p =>
    refine ⟨before_first hp h, ?_, atof_nonneg _ _⟩
    intro hx; cases hx
  | none =>
    have hn := nowhere hp h
    simp only
    cases h2 : find t ",".toList with
    | some q =>
      refine ⟨fun hx => hn (hx.trans (List.take_prefix _ _).isInfix), fun _ hx => before_first hc h2 (mem_infix hx), atof_nonneg _ _⟩
    | none => exact ⟨hn, fun _ hx => nowhere hc h2 (mem_infix hx), atof_nonneg _ _⟩

/-- What the text of a field must be. -/
def TextOk : Codec → Text → Prop
  | .sint _, t => Short t
  | .uint32, t => Short t ∧ '-' ∉ t
  | .size, t => Short t ∧ '-' ∉ t
  | .sizeAs32, t => Short t ∧ '-' ∉ t
  | .sizeFrom32, t => Short t ∧ '-' ∉ t
  | _, _ => True

/-- The values that are read have the type. -/
def yields : Ty → Codec → Bool
  | .int lo hi, .sint w => decide (w = 8 ∧ lo = -128 ∧ hi = 127 ∨ w = 32 ∧ lo ≤ -999999999 ∧ 999999999 ≤ hi)
  | .int lo hi, .uint32 => decide (lo ≤ 0 ∧ 999999999 ≤ hi)
  | .int lo hi, .size => decide (lo ≤ 0 ∧ 999999999 ≤ hi)
  | .int lo hi, .sizeAs32 => decide (lo ≤ 0 ∧ 999999999 ≤ hi)
  | .int lo hi, .sizeFrom32 => decide (lo ≤ 0 ∧ 999999999 ≤ hi)
  | t, c => covers t c

/-- The value from before the reading is never left. -/
def Codec.sets : Codec → Bool
  | .source | .scale | .transmission | .command | .flag | .text | .optText | .uuid => true
  | _ => false

theorem toSint8_range (i : Int) : -128 ≤ toSint 8 i ∧ toSint 8 i ≤ 127 := by
  unfold toSint
  simp only
  split <;> norm_num at * <;> omega

theorem unsigned_holds (w : Nat) (hw : w = 32 ∨ w = 64) {lo hi : Int} (hr : lo ≤ 0 ∧ 999999999 ≤ hi) {old : Val} {t : Text}
    (ht : Short t ∧ '-' ∉ t) (h : Holds (.int lo hi) old ∨ t ≠ []) :
    Holds (.int lo hi) (result (fun n : Nat => .int n) old (readUnsigned w t 0)) := by
  obtain ⟨i, ha, h1, h2, h3⟩ := atoi_short ht.1
  have h3 := h3 ht.2
  unfold readUnsigned
  split
  · rename_i he
    rcases h with h | h
    · simpa [result] using h
    · exact absurd he h
  · rw [ha]
    have hb : toUint w i = i := by
      unfold toUint
      rcases hw with rfl | rfl <;> norm_num <;> omega
    simp only [Option.map_some, result, if_true, Holds, hb]
    omega

theorem signed32_holds (g : Int → Int) {lo hi : Int} {old : Val} {t : Text}
    (ht : Short t) (h : Holds (.int lo hi) old ∨ t ≠ []) (w : Nat)
    (hw : (w = 32 ∧ ∀ i, -999999999 ≤ i → i ≤ 999999999 → ('-' ∉ t → 0 ≤ i) → lo ≤ g i ∧ g i ≤ hi) ∨
      (w = 8 ∧ ∀ i, -128 ≤ i → i ≤ 127 → lo ≤ g i ∧ g i ≤ hi)) :
    Holds (.int lo hi) (result (fun i => .int (g i)) old (readSigned w t 0)) := by
  obtain ⟨i, ha, h1, h2, h3⟩ := atoi_short ht
  unfold readSigned
  split
  · rename_i he
    rcases h with h | h
    · simpa [result] using h
    · exact absurd he h
  · rw [ha]
    simp only [Option.map_some, result, if_true, Holds]
    rcases hw with ⟨rfl, hg⟩ | ⟨rfl, hw⟩
    · rw [toSint_small 32 (by omega) i (by norm_num; omega) (by norm_num; omega)]
      exact hg i h1 h2 h3
    · exact hw _ (toSint8_range i).1 (toSint8_range i).2

/-- A value of the right type is read. -/
theorem dec_holds (F : Fl) (ty : Ty) (c : Codec) (old : Val) (t : Text) (hy : yields ty c = true) (ht : TextOk c t)
    (h : Holds ty old ∨ c.sets = true ∨ t ≠ []) (hm : c = .vec ∨ c = .color ∨ c = .matrix → Holds ty old) : Holds ty (dec F c old t) := by
  cases c
  case optText => cases ty <;> simp [yields, covers] at hy <;> simp [dec, Holds]
  case text => cases ty <;> simp [yields, covers] at hy <;> simp [dec, Holds]
  case uuid => cases ty <;> simp [yields, covers] at hy <;> simp [dec, Holds, guid_length]
  case sint w =>
    cases ty <;> simp [yields, covers] at hy
    rename_i lo hi
    apply signed32_holds (fun i => i) ht (by simpa [Codec.sets] using h)
    rcases hy with hy | hy
    · exact .inr ⟨hy.1, fun i a b => by omega⟩
    · exact .inl ⟨hy.1, fun i a b _ => by omega⟩
  case uint32 => cases ty <;> simp [yields, covers] at hy; exact unsigned_holds 32 (.inl rfl) hy ht (by simpa [Codec.sets] using h)
  case size => cases ty <;> simp [yields, covers] at hy; exact unsigned_holds 64 (.inr rfl) hy ht (by simpa [Codec.sets] using h)
  case sizeAs32 => cases ty <;> simp [yields, covers] at hy; exact unsigned_holds 64 (.inr rfl) hy ht (by simpa [Codec.sets] using h)
  case sizeFrom32 =>
    cases ty <;> simp [yields, covers] at hy
    refine signed32_holds (fun i => (toUint 64 i : Int)) ht.1 (by simpa [Codec.sets] using h) 32 (.inl ⟨rfl, ?_⟩)
    intro i h1 h2 h3
    have h3 := h3 ht.2
    have hb : (toUint 64 i : Int) = i := by
      unfold toUint
      norm_num; omega
    omega
  case flag => cases ty <;> simp [yields, covers] at hy <;> simp [dec, Holds]
  case real =>
    cases ty <;> simp [yields, covers] at hy
    rw [dec]
    split
    · rename_i he
      simpa [Codec.sets, he] using h
    · exact atof_nonneg F t
  case vec =>
    cases ty <;> simp [yields, covers] at hy
    obtain ⟨c, hc, hg⟩ := vector_good F t (old := ⟨zero, zero, zero⟩) (by simp [Good, zero])
    rw [dec, hc]
    unfold result
    simp only
    split
    · exact hg
    · exact hm (by simp)
  case color =>
    cases ty <;> simp [yields, covers] at hy
    obtain ⟨c, hc, hg⟩ := color_good F t (old := white) (by simp [Good, white]; norm_num)
    rw [dec, hc]
    unfold result
    simp only
    split
    · exact hg
    · exact hm (by simp)
  case matrix =>
    cases ty <;> simp [yields, covers] at hy
    obtain ⟨c, hc, hg⟩ := matrix_good F t (old := .identity) (by simp [GoodM, Good, Mat.identity, zero, one])
    rw [dec, hc]
    unfold result
    simp only
    split
    · exact hg
    · exact hm (by simp)
  case source => cases ty <;> simp [yields, covers] at hy <;> simp [dec, Holds]
  case scale => cases ty <;> simp [yields, covers] at hy <;> simp [dec, Holds]
  case transmission => cases ty <;> simp [yields, covers] at hy <;> simp [dec, Holds]
  case command => cases ty <;> simp [yields, covers] at hy; exact command_holds F t

/-! ### The table -/

/-- Where a field is read from is where the specification speaks about its text. -/
def fieldAsked (c : Class) (f : Field) : Bool :=
  match f.rcodec with
  | .sint _ => f.rplace == .own && signedCounts.contains c.node
  | .uint32 | .size | .sizeAs32 | .sizeFrom32 => (f.rplace == .own && counts.contains c.node) || f.rplace == .attr "break"
  | _ => true

/-- The field is read as a value of the specification. -/
def fieldReads (c : Class) (v : Value) (f : Field) : Bool :=
  yields v.ty f.rcodec && fieldAsked c f &&
    (decide (Holds v.ty f.init) || f.rcodec.sets || (f.rplace == .own && filled.contains c.node && f.rcodec != .vec && f.rcodec != .color && f.rcodec != .matrix))

/-- The number of objects that are read is one of the specification. -/
def slotReads (c : Class) (m : Member) (s : Slot) : Bool :=
  s.accepts.all (fun p => m.classes.contains p.2 && kinds.any (fun k => k.cls == p.2) && (row classes p.2).node == p.1) &&
    s.holds.all (fun h => m.classes.contains h) &&
    match s.how with
    | .many => m.least == 0 && m.most == none
    | .first => m.least == 0 && m.most == some 1
    | .needed => m.least == 1 && m.most == some 1 && asked s
    | .embedded => m.least == 1 && m.most == some 1 && (asked s || (s.holds.length == 1 && s.holds.all (fun h => buildB (fresh classes h))))
where
  /-- There is a node for the member. -/
  asked (s : Slot) : Bool := !s.needsUuid && s.accepts.any (fun p => match s.rbox with
    | none => required.contains (c.node, p.1)
    | some b => required.contains (c.node, b) && required.contains (b, p.1))

/-- A class reads a kind of objects. -/
def classReads (k : Kind) : Bool :=
  pairs (fieldReads (row classes k.cls)) k.values (row classes k.cls).fields &&
    pairs (slotReads (row classes k.cls)) k.members (row classes k.cls).slots &&
    (k.cls != "fGobo" || ((row classes k.cls).node == "Gobo" && (row classes k.cls).fields ==
      [⟨"fGobo", .own, .text, .own, .text, .text []⟩, ⟨"fGoboRotation", .attr "rotation", .real, .attr "rotation", .real, .real zero⟩]))

set_option maxRecDepth 4000 in
theorem kinds_read : ∀ k ∈ kinds, classReads k = true := by decide +kernel

theorem sane_kid : ∀ {k : List Xml}, SaneAll k → ∀ x ∈ k, Sane x
  | [], _, _, h => by cases h
  | a :: k, hs, x, h => by
    rw [SaneAll] at hs
    rcases List.mem_cons.1 h with h | h
    · rw [h]; exact hs.1
    · exact sane_kid hs.2 x h

theorem sane_kids {e x : Xml} (h : Sane e) (hx : x ∈ e.kids) : Sane x := by
  cases e with
  | elem n a t k => rw [Sane] at h; exact sane_kid h.2 x hx

theorem sane_node {e : Xml} (h : Sane e) : SaneNode e := by
  cases e with
  | elem n a t k => rw [Sane] at h; exact h.1

theorem sane_place {e x : Xml} (h : Sane e) {s : Slot} (hx : x ∈ s.place e) : Sane x := by
  unfold Slot.place at hx
  cases hb : s.rbox with
  | none => rw [hb] at hx; exact sane_kids h hx
  | some b =>
    rw [hb] at hx
    simp only at hx
    cases hc : e.child? b.toList with
    | none => rw [hc] at hx; cases hx
    | some c =>
      rw [hc] at hx
      exact sane_kids (sane_kids h (List.mem_of_find?_eq_some hc)) hx

theorem same_called {s : Slot} {x : Xml} {m : String} (h : s.same x.name m = true) : Called x m := by
  unfold Called
  apply Classical.byContradiction
  intro hd
  rw [same_differ hd] at h
  cases h

theorem field_asked {e : Xml} (h : SaneNode e) {c : Class} (hn : Called e c.node) {f : Field} (hf : fieldAsked c f = true) :
    TextOk f.rcodec (f.rplace.get e) := by
  have hnat : (f.rplace == .own && counts.contains c.node) || f.rplace == .attr "break" → Short (f.rplace.get e) ∧ '-' ∉ f.rplace.get e := by
    intro hx
    simp only [Bool.or_eq_true, Bool.and_eq_true, beq_iff_eq, List.contains_iff_mem] at hx
    rcases hx with ⟨h1, h2⟩ | h1
    · rw [h1]; exact h.count _ h2 hn
    · rw [h1]
      show Short ((e.attr? "break".toList).getD []) ∧ '-' ∉ (e.attr? "break".toList).getD []
      cases ha : e.attr? "break".toList with
      | none => exact ⟨Nat.zero_le _, List.not_mem_nil⟩
      | some t => exact h.break' t ha
  unfold fieldAsked at hf
  cases hc : f.rcodec <;> rw [hc] at hf <;> first | trivial | exact hnat hf | skip
  simp only [Bool.and_eq_true, beq_iff_eq, List.contains_iff_mem] at hf
  rw [hf.1]
  exact h.signedCount _ hf.2 hn

theorem field_read (F : Fl) {e : Xml} (h : SaneNode e) {c : Class} (hn : Called e c.node) {v : Value} {f : Field} (hf : fieldReads c v f = true) :
    Holds v.ty (dec F f.rcodec f.init (f.rplace.get e)) := by
  unfold fieldReads at hf
  simp only [Bool.and_eq_true, Bool.or_eq_true, decide_eq_true_eq, beq_iff_eq, bne_iff_ne, List.contains_iff_mem] at hf
  obtain ⟨⟨h1, h2⟩, h3⟩ := hf
  apply dec_holds F _ _ _ _ h1 (field_asked h hn h2)
  · rcases h3 with (h3 | h3) | h3
    · exact .inl h3
    · exact .inr (.inl h3)
    · rw [h3.1.1.1.1]
      exact .inr (.inr (h.filled _ h3.1.1.1.2 hn))
  · intro hx
    rcases h3 with (h3 | h3) | h3
    · exact h3
    · rcases hx with hx | hx | hx <;> rw [hx] at h3 <;> simp [Codec.sets] at h3
    · rcases hx with hx | hx | hx
      · exact absurd hx h3.1.1.2
      · exact absurd hx h3.1.2
      · exact absurd hx h3.2

theorem fields_read (F : Fl) {e : Xml} (h : SaneNode e) {c : Class} (hn : Called e c.node) : ∀ {vs : List Value} {fs : List Field},
    pairs (fieldReads c) vs fs = true → HoldsAll vs (decAll F fs e)
  | [], [], _ => by simp [decAll, HoldsAll]
  | v :: vs, f :: fs, hp => by
    rw [pairs, Bool.and_eq_true] at hp
    rw [decAll, List.map_cons, HoldsAll]
    exact ⟨field_read F h hn hp.1, fields_read F h hn hp.2⟩
  | [], _ :: _, h => by simp [pairs] at h
  | _ :: _, [], h => by simp [pairs] at h

theorem found_mem {s : Slot} {rd : String → Xml → Obj} {e : Xml} {o : Obj} (h : o ∈ s.found rd (s.place e)) :
    ∃ x ∈ s.place e, ∃ p ∈ s.accepts, s.same x.name p.1 = true ∧ o = rd p.2 x := by
  unfold Slot.found at h
  obtain ⟨x, hx, hm⟩ := List.mem_filterMap.1 h
  refine ⟨x, hx, ?_⟩
  unfold Slot.created at hm
  split at hm
  · cases hm
  · cases hf : s.accepts.find? (fun p => s.same x.name p.1) with
    | none => rw [hf] at hm; cases hm
    | some p =>
      rw [hf] at hm
      simp only [Option.map_some, Option.some.injEq] at hm
      exact ⟨p, List.mem_of_find?_eq_some hf, by simpa using List.find?_some hf, hm.symm⟩

theorem child_there {e : Xml} {b : String} (h : ∃ x ∈ e.kids, x.name = b.toList) : ∃ x, e.child? b.toList = some x ∧ x ∈ e.kids ∧ x.name = b.toList := by
  obtain ⟨x, hx, hb⟩ := h
  cases hc : e.child? b.toList with
  | none =>
    unfold Scene.Xml.child? at hc
    rw [List.find?_eq_none] at hc
    exact absurd (by simpa using hb) (hc x hx)
  | some y =>
    unfold Scene.Xml.child? at hc
    exact ⟨y, rfl, List.mem_of_find?_eq_some hc, by simpa using List.find?_some hc⟩

/-- A required node is found. -/
theorem found_asked {e : Xml} (h : Sane e) {c : Class} (hn : Called e c.node) {s : Slot} (ha : slotReads.asked c s = true)
    (rd : String → Xml → Obj) : s.found rd (s.place e) ≠ [] := by
  unfold slotReads.asked at ha
  simp only [Bool.and_eq_true, Bool.not_eq_true', List.any_eq_true] at ha
  obtain ⟨hu, p, hp, ha⟩ := ha
  have hx : ∃ x ∈ s.place e, x.name = p.1.toList := by
    unfold Slot.place
    cases hb : s.rbox with
    | none =>
      rw [hb] at ha
      simp only [List.contains_iff_mem] at ha
      exact (sane_node h).required _ ha hn
    | some b =>
      rw [hb] at ha
      simp only [Bool.and_eq_true, List.contains_iff_mem] at ha
      obtain ⟨y, h1, h2, h3⟩ := child_there ((sane_node h).required _ ha.1 hn)
      simp only
      rw [h1]
      exact (sane_node (sane_kids h h2)).required _ ha.2 (by unfold Called; rw [h3])
  obtain ⟨x, hx, hxn⟩ := hx
  intro hnil
  unfold Slot.found at hnil
  rw [List.filterMap_eq_nil_iff] at hnil
  have := hnil x hx
  unfold Slot.created at this
  rw [hu] at this
  simp only [Bool.false_and, Bool.false_eq_true, if_false, Option.map_map, Option.map_eq_none_iff, List.find?_eq_none] at this
  apply this p hp
  rw [hxn]
  unfold Slot.same
  split
  · unfold eqNoCase; simp
  · simp

/-- The objects in a member. -/
theorem slot_read (F : Fl) {e : Xml} (h : Sane e) {c : Class} (hn : Called e c.node) {m : Member} {s : Slot} (hs : slotReads c m s = true)
    (ih : ∀ x ∈ s.place e, ∀ k ∈ kinds, Called x (row classes k.cls).node → Build (read classes F k.cls x)) :
    Contents m (s.read classes (read classes F) e) ∧ ∀ o ∈ s.read classes (read classes F) e, Build o := by
  unfold slotReads at hs
  simp only [Bool.and_eq_true, List.all_eq_true, List.contains_iff_mem, List.any_eq_true, beq_iff_eq] at hs
  obtain ⟨⟨h1, h2⟩, h3⟩ := hs
  have hf : ∀ o ∈ s.found (read classes F) (s.place e), o.cls ∈ m.classes ∧ Build o := by
    intro o ho
    obtain ⟨x, hx, p, hp, hsame, rfl⟩ := found_mem ho
    obtain ⟨⟨a1, k, hk, a2⟩, a3⟩ := h1 p hp
    refine ⟨?_, ?_⟩
    · rw [read_eq]; exact a1
    · rw [← a2]
      refine ih x hx k hk ?_
      rw [a2, a3]
      exact same_called hsame
  have hr : s.read classes (read classes F) e = match s.how with
      | .many => s.found (read classes F) (s.place e)
      | .first => (s.found (read classes F) (s.place e)).take 1
      | .needed => (s.found (read classes F) (s.place e)).take 1
      | .embedded => match s.found (read classes F) (s.place e) with
        | o :: _ => [o]
        | [] => s.holds.map (fresh classes) := rfl
  rw [hr]
  cases hh : s.how with
  | many =>
    rw [hh] at h3
    simp only [Bool.and_eq_true, beq_iff_eq] at h3 ⊢
    exact ⟨⟨fun o ho => (hf o ho).1, by omega, by rw [h3.2]; simp⟩, fun o ho => (hf o ho).2⟩
  | first =>
    rw [hh] at h3
    simp only [Bool.and_eq_true, beq_iff_eq] at h3 ⊢
    refine ⟨⟨fun o ho => (hf o (List.mem_of_mem_take ho)).1, by omega, ?_⟩, fun o ho => (hf o (List.mem_of_mem_take ho)).2⟩
    rw [h3.2]; simp
  | needed =>
    rw [hh] at h3
    simp only [Bool.and_eq_true, beq_iff_eq] at h3 ⊢
    have hne := found_asked h hn h3.2 (read classes F)
    refine ⟨⟨fun o ho => (hf o (List.mem_of_mem_take ho)).1, ?_, ?_⟩, fun o ho => (hf o (List.mem_of_mem_take ho)).2⟩
    · have := List.length_pos_iff.2 hne
      rw [List.length_take]; omega
    · rw [h3.1.2]; simp
  | embedded =>
    rw [hh] at h3
    simp only [Bool.and_eq_true, Bool.or_eq_true, beq_iff_eq, List.all_eq_true] at h3 ⊢
    obtain ⟨⟨h4, h5⟩, h6⟩ := h3
    cases hfd : s.found (read classes F) (s.place e) with
    | cons o os =>
      rw [hfd] at hf
      have ho := hf o (by simp)
      simp only [List.mem_singleton, forall_eq]
      exact ⟨⟨by simpa using ho.1, by simp [h4], by rw [h5]; simp⟩, ho.2⟩
    | nil =>
      rcases h6 with h6 | ⟨h6, h7⟩
      · exact absurd hfd (found_asked h hn h6 _)
      · simp only
        refine ⟨⟨?_, by simp [h4, h6], by rw [h5]; simp [h6]⟩, ?_⟩
        · intro o ho
          obtain ⟨x, hx, rfl⟩ := List.mem_map.1 ho
          exact h2 x hx
        · intro o ho
          obtain ⟨x, hx, rfl⟩ := List.mem_map.1 ho
          exact buildB_sound _ (h7 x hx)

theorem slots_read (F : Fl) {e : Xml} (h : Sane e) {c : Class} (hn : Called e c.node)
    (ih : ∀ s : Slot, ∀ x ∈ s.place e, ∀ k ∈ kinds, Called x (row classes k.cls).node → Build (read classes F k.cls x)) :
    ∀ {ms : List Member} {ss : List Slot}, pairs (slotReads c) ms ss = true →
    (∀ p ∈ ms.zip (ss.map fun s => s.read classes (read classes F) e), Contents p.1 p.2) ∧
      ∀ k ∈ ss.map fun s => s.read classes (read classes F) e, ∀ o ∈ k, Build o
  | [], [], _ => by simp
  | m :: ms, s :: ss, hp => by
    rw [pairs, Bool.and_eq_true] at hp
    have h1 := slot_read F h hn hp.1 (ih s)
    have h2 := slots_read F h hn ih hp.2
    simp only [List.map_cons, List.zip_cons_cons, List.mem_cons]
    refine ⟨?_, ?_⟩
    · rintro p (rfl | hp)
      · exact h1.1
      · exact h2.1 p hp
    · rintro k (rfl | hk)
      · exact h1.2
      · exact h2.2 k hk
  | [], _ :: _, h => by simp [pairs] at h
  | _ :: _, [], h => by simp [pairs] at h

/-- What is read from a sane description is a tree of the specification. -/
theorem read_build (F : Fl) : ∀ (n : Nat) (e : Xml), depth e ≤ n → Sane e → ∀ k ∈ kinds, Called e (row classes k.cls).node →
    Build (read classes F k.cls e)
  | 0, e, hd, _ => by have := depth_pos e; omega
  | n + 1, e, hd, h => by
    intro k hk hn
    have ht := kinds_read k hk
    unfold classReads at ht
    simp only [Bool.and_eq_true, Bool.or_eq_true, bne_iff_ne, beq_iff_eq] at ht
    obtain ⟨⟨h1, h2⟩, h3⟩ := ht
    have hs := slots_read F h hn (fun s x hx k' hk' hn' => read_build F n x (by have := depth_place s hx; omega) (sane_place h hx) k' hk' hn') h2
    rw [read_eq]
    refine .mk k _ _ hk (fields_read F (sane_node h) hn h1) ?_ (by rw [List.length_map, pairs_length h2]) hs.1 hs.2
    intro hg hv
    rcases h3 with h3 | h3
    · exact absurd hg h3
    · rw [h3.2] at hv ⊢
      simp only [decAll, List.map_cons, List.map_nil, List.head?_cons, Option.some.injEq, dec, Place.get, Val.text.injEq] at hv ⊢
      rw [h3.1] at hn
      rw [(sane_node h).gobo hn hv, hv]
      simp

/-! ### Saving -/

theorem crashes_list : ∀ {k : List Obj}, (∀ o ∈ k, crashes classes o = false) → crashesList classes k = false
  | [], _ => by simp [crashesList]
  | o :: k, h => by
    rw [crashesList, h o (by simp), crashes_list (fun p hp => h p (by simp [hp]))]
    simp

theorem crashes_slots : ∀ {ms : List Member} {ss : List Slot} {ks : List (List Obj)}, pairs slotCovers ms ss = true →
    (∀ p ∈ ms.zip ks, Contents p.1 p.2) → (∀ k ∈ ks, ∀ o ∈ k, crashes classes o = false) → crashesSlots classes ss ks = false
  | _, ss, [], _, _, _ => by rw [crashesSlots]
  | [], [], _ :: _, _, _, _ => by rw [crashesSlots]
  | m :: ms, s :: ss, k :: ks, hp, hc, hk => by
    rw [pairs, Bool.and_eq_true] at hp
    rw [crashesSlots, crashes_list (hk k (by simp)), crashes_slots hp.2 (fun p hq => hc p (by simp [hq])) (fun l hl => hk l (by simp [hl]))]
    have h1 := hp.1
    unfold slotCovers at h1
    simp only [Bool.and_eq_true] at h1
    have h2 := (hc (m, k) (by simp)).2.1
    cases hh : s.how <;> rw [hh] at h1 <;> simp at h1 ⊢
    rw [h1.2.1] at h2
    intro he
    rw [he] at h2
    simp at h2
  | [], _ :: _, _ :: _, h, _, _ => by simp [pairs] at h
  | _ :: _, [], _ :: _, h, _, _ => by simp [pairs] at h

/-- A tree of the specification can be saved. -/
theorem build_saved {o : Obj} (h : Build o) : crashes classes o = false := by
  induction h with
  | mk k vs ks hk hv hg hn hf hb ih =>
    obtain ⟨c, hc, hname, hfs, hss⟩ := kind_class hk
    rw [crashes, ← hname, row_of hc]
    exact crashes_slots hss hf ih

end Verif.Mvr
