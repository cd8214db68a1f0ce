import Verif.Gdtf.FileLemmas
import Verif.Gdtf.ValueProps

/-!
# The texts that are written for the values of a GDTF description
-/

namespace Verif.Gdtf

open Verif.Lookup (Txt)
open Verif.UnicodeSpec Spec
open Verif.Real Verif.Text Verif.Dmx Verif.Enum Verif.Str

/-! ### Printable characters -/

/-- An ASCII character, neither null nor carriage return. -/
def Pr (c : Char) : Prop := 0 < c.toNat ∧ c.toNat < 128 ∧ c.toNat ≠ 13

instance (c : Char) : Decidable (Pr c) := by unfold Pr; infer_instance

theorem legible_pr {s : List Char} (h : ∀ c ∈ s, Pr c) : Legible (toTxt s) := by
  refine ⟨s.map Char.toNat, ?_, ?_⟩
  · intro c hc
    obtain ⟨d, hd, rfl⟩ := List.mem_map.1 hc
    obtain ⟨h1, h2, h3⟩ := h d hd
    unfold IsScalar
    omega
  · unfold toTxt
    induction s with
    | nil => rfl
    | cons c s ih =>
      have hc := h c (by simp)
      rw [List.map_cons, List.map_cons, List.flatMap_cons, ← ih (fun d hd => h d (by simp [hd]))]
      unfold utf16
      rw [if_pos (by have := hc.2.1; omega)]
      rfl

theorem pr_append {s t : List Char} (h1 : ∀ c ∈ s, Pr c) (h2 : ∀ c ∈ t, Pr c) : ∀ c ∈ s ++ t, Pr c := by
  intro c hc
  rcases List.mem_append.1 hc with hc | hc
  · exact h1 c hc
  · exact h2 c hc

theorem pr_cons {a : Char} {t : List Char} (h1 : Pr a) (h2 : ∀ c ∈ t, Pr c) : ∀ c ∈ a :: t, Pr c := by
  intro c hc
  rcases List.mem_cons.1 hc with rfl | hc
  · exact h1
  · exact h2 c hc

theorem pr_digit {c : Char} (h : isDigit c = true) : Pr c := by
  have h1 : '0' ≤ c ∧ c ≤ '9' := by simpa [isDigit] using h
  have a : (48 : Nat) ≤ c.toNat := h1.1
  have b : c.toNat ≤ 57 := h1.2
  unfold Pr
  omega

theorem pr_real (x : Dbl) : ∀ c ∈ printReal x, Pr c := by
  intro c hc
  rcases printReal_chars x c hc with h | h | h
  · exact pr_digit h
  · subst h; decide
  · subst h; decide

theorem pr_nat (n : Nat) : ∀ c ∈ natText n, Pr c := fun c hc => pr_digit (natText_digits _ c hc)

theorem pr_int (i : Int) : ∀ c ∈ intText i, Pr c := by
  unfold intText
  split
  · exact pr_cons (by decide) (pr_nat _)
  · exact pr_nat _

theorem pr_join : ∀ (l : List (List Char)), (∀ t ∈ l, ∀ c ∈ t, Pr c) → ∀ c ∈ joinComma l, Pr c
  | [], _ => by intro c hc; cases hc
  | [a], h => h a (by simp)
  | a :: b :: t, h => by
    rw [joinComma]
    exact pr_append (h a (by simp)) (pr_cons (by decide) (pr_join (b :: t) (fun x hx => h x (by simp [List.mem_cons.1 hx]))))

theorem pr_group (l : List (List Char)) (h : ∀ t ∈ l, ∀ c ∈ t, Pr c) : ∀ c ∈ group l, Pr c := by
  unfold group
  exact pr_cons (by decide) (pr_append (pr_join l h) (by decide))

theorem pr_three (v : V3) : ∀ t ∈ [printReal v.x, printReal v.y, printReal v.z], ∀ c ∈ t, Pr c := by
  intro t ht
  simp only [List.mem_cons, List.not_mem_nil, or_false] at ht
  rcases ht with rfl | rfl | rfl <;> exact pr_real _

theorem pr_four (a b c d : Dbl) : ∀ t ∈ [printReal a, printReal b, printReal c, printReal d], ∀ c ∈ t, Pr c := by
  intro t ht
  simp only [List.mem_cons, List.not_mem_nil, or_false] at ht
  rcases ht with rfl | rfl | rfl | rfl <;> exact pr_real _

theorem pr_flatten (l : List (List Char)) (h : ∀ t ∈ l, ∀ c ∈ t, Pr c) : ∀ c ∈ l.flatten, Pr c := by
  intro c hc
  obtain ⟨t, ht, hc⟩ := List.mem_flatten.1 hc
  exact h t ht c hc

theorem pr_matrix (m : Mat) : ∀ c ∈ writeMatrixGdtf m, Pr c := by
  unfold writeMatrixGdtf
  apply pr_flatten
  intro t ht
  simp only [List.mem_cons, List.not_mem_nil, or_false] at ht
  rcases ht with rfl | rfl | rfl | rfl
  · exact pr_group _ (pr_four _ _ _ _)
  · exact pr_group _ (pr_four _ _ _ _)
  · exact pr_group _ (pr_four _ _ _ _)
  · decide

theorem pr_rotation (m : Mat) : ∀ c ∈ writeRotation m, Pr c := by
  unfold writeRotation
  apply pr_flatten
  intro t ht
  simp only [List.mem_cons, List.not_mem_nil, or_false] at ht
  rcases ht with rfl | rfl | rfl <;> exact pr_group _ (pr_three _)

theorem pr_color (v : V3) : ∀ c ∈ writeColor v, Pr c := by
  unfold writeColor
  exact pr_append (pr_real _) (pr_cons (by decide) (pr_append (pr_real _) (pr_cons (by decide) (pr_real _))))

theorem pr_colors (cs : List V3) : ∀ c ∈ writeColors cs, Pr c := by
  unfold writeColors
  apply pr_flatten
  intro t ht
  obtain ⟨v, _, rfl⟩ := List.mem_map.1 ht
  exact pr_group _ (pr_three _)

theorem pr_point (x y : Dbl) : ∀ c ∈ writePoint2 x y, Pr c := by
  unfold writePoint2 writeReals
  refine pr_append (pr_append (by decide) (pr_join _ ?_)) (by decide)
  intro t ht
  obtain ⟨v, _, rfl⟩ := List.mem_map.1 ht
  exact pr_real _

theorem pr_hexChar (d : Nat) : Pr (hexChar d) := by
  unfold hexChar
  split <;> decide

theorem pr_hexLoop : ∀ (n v : Nat) (s : List Char), (∀ c ∈ s, Pr c) → ∀ c ∈ writeHexLoop n v s, Pr c
  | 0, v, s, h => by rw [writeHexLoop]; exact h
  | n + 1, v, s, h => by
    rw [writeHexLoop]
    split
    · apply pr_hexLoop
      intro c hc
      unfold Str.insert at hc
      repeat' split at hc
      all_goals
        simp only [List.mem_append, List.mem_cons, List.not_mem_nil, or_false] at hc
        first
          | (rcases hc with (hc | hc) | hc
             · exact h c (List.mem_of_mem_take hc)
             · rw [hc]; exact pr_hexChar _
             · exact h c (List.mem_of_mem_drop hc))
          | (rcases hc with hc | hc
             · exact h c hc
             · rw [hc]; exact pr_hexChar _)
          | exact h c hc
    · exact h

theorem pr_hex (v : Nat) : ∀ c ∈ writeHex v, Pr c := by
  unfold writeHex
  repeat' split
  · decide
  · decide
  · exact pr_hexLoop _ _ _ (by decide)

theorem pr_uuid (u : List Byte) : ∀ c ∈ Uuid.convertToText u, Pr c := by
  have hb : ∀ b : Byte, ∀ c ∈ Uuid.getPieceAsText b, Pr c := by decide +kernel
  unfold Uuid.convertToText Uuid.toText
  apply pr_flatten
  intro t ht
  simp only [Bool.false_eq_true, if_false, List.mem_cons, List.not_mem_nil, or_false] at ht
  rcases ht with rfl | rfl | rfl | rfl | rfl | rfl | rfl | rfl | rfl | rfl | rfl | rfl | rfl | rfl | rfl | rfl | rfl | rfl | rfl | rfl | rfl | rfl
  all_goals first
    | exact hb _
    | decide

theorem pr_offset (o : Offset) : ∀ c ∈ writeOffset o, Pr c := by
  unfold writeOffset writeInts
  refine pr_append (pr_append (by decide) (pr_join _ ?_)) (by decide)
  intro t ht
  obtain ⟨v, _, rfl⟩ := List.mem_map.1 ht
  exact pr_int _

theorem pr_break (i : Int) : ∀ c ∈ writeBreak i, Pr c := by
  unfold writeBreak
  split
  · decide
  · exact pr_int _

theorem pr_two (n : Nat) : ∀ c ∈ twoDigits n, Pr c := by
  unfold twoDigits
  split
  · exact pr_cons (by decide) (pr_int _)
  · exact pr_int _

theorem pr_date (t : Time) : ∀ c ∈ writeDate t, Pr c := by
  unfold writeDate
  exact pr_append (pr_int _) (pr_cons (by decide) (pr_append (pr_two _) (pr_cons (by decide) (pr_append (pr_two _) (pr_cons (by decide)
    (pr_append (pr_two _) (pr_cons (by decide) (pr_append (pr_two _) (pr_cons (by decide) (pr_two _))))))))))

theorem pr_dmx (v n : Nat) (b : Bool) : ∀ c ∈ writeDmx v n b, Pr c := by
  unfold writeDmx
  split
  · decide
  · exact pr_append (pr_nat _) (pr_cons (by decide) (pr_nat _))

theorem legible_nil : Legible [] := ⟨[], by simp, rfl⟩

/-- The texts in a value, while it is written. -/
def LegibleOut : Val → Prop
  | .text t => Legible t
  | .link (some t) => Legible t
  | .raw t => Legible t
  | .rawHigh t => Legible t
  | _ => True

theorem enc_legible (cv : Cv) (v : Val) (h : LegibleOut v) : Legible (enc cv v) := by
  unfold enc
  split
  case h_1 => exact h
  case h_2 => exact h
  case h_3 => exact legible_pr (pr_real _)
  case h_4 => exact legible_pr (pr_int _)
  case h_5 => exact legible_pr (pr_matrix _)
  case h_6 => exact legible_pr (pr_rotation _)
  case h_7 => exact legible_pr (pr_color _)
  case h_8 => exact legible_pr (pr_colors _)
  case h_9 => exact legible_pr (pr_point _ _)
  case h_10 => exact legible_pr (pr_group _ (pr_three _))
  case h_11 => exact h
  case h_12 => exact h
  case h_13 => exact legible_pr (pr_hex _)
  case h_14 => exact legible_pr (pr_uuid _)
  case h_15 => exact legible_pr (pr_offset _)
  case h_16 => exact legible_pr (pr_break _)
  case h_17 => exact legible_pr (pr_date _)
  case h_18 => exact legible_pr (pr_int _)
  case h_39 => exact legible_nil
  all_goals
    rename_i v
    apply legible_pr
    cases v <;> decide

/-! ### The elements of a description -/

theorem setAttr_mem {l : Attrs} {a : String} {t : Txt} {x : String × Txt} (h : x ∈ Node.setAttr l a t) : x ∈ l ∨ x = (a, t) := by
  induction l with
  | nil => rw [Node.setAttr, List.mem_singleton] at h; exact .inr h
  | cons e l ih =>
    rw [Node.setAttr] at h
    split at h
    · rcases List.mem_cons.1 h with h | h
      · exact .inr h
      · exact .inl (by simp [h])
    · rcases List.mem_cons.1 h with h | h
      · exact .inl (by simp [h])
      · rcases ih h with h | h
        · exact .inl (by simp [h])
        · exact .inr h

theorem setAttr_nodup {l : Attrs} (a : String) (t : Txt) (h : (l.map (·.1)).Nodup) : ((Node.setAttr l a t).map (·.1)).Nodup := by
  induction l with
  | nil => simp [Node.setAttr]
  | cons e l ih =>
    rw [List.map_cons, List.nodup_cons] at h
    rw [Node.setAttr]
    split
    · rename_i he
      rw [List.map_cons, List.nodup_cons]
      exact ⟨by rw [← he]; exact h.1, h.2⟩
    · rename_i he
      rw [List.map_cons, List.nodup_cons]
      refine ⟨fun hm => ?_, ih h.2⟩
      obtain ⟨x, hx, hxe⟩ := List.mem_map.1 hm
      rcases setAttr_mem hx with hx | hx
      · exact h.1 (List.mem_map.2 ⟨x, hx, hxe⟩)
      · rw [hx] at hxe; exact he hxe.symm

theorem write_attrs (k : Node.Kind) (C : Node.Conv Val) (flags : String → Bool) (d : Members) (P : Txt → Prop)
    (hP : ∀ i ∈ k.writes, P (C.text i d)) :
    ((k.write C flags d).map (·.1)).Nodup ∧ ∀ x ∈ k.write C flags d, (∃ i ∈ k.writes, x.1 = i.attr) ∧ P x.2 := by
  unfold Node.Kind.write
  have key : ∀ (l : List Node.Item) (acc : Attrs), (∀ i ∈ l, i ∈ k.writes) → (acc.map (·.1)).Nodup →
      (∀ x ∈ acc, (∃ i ∈ k.writes, x.1 = i.attr) ∧ P x.2) →
      ((l.foldl (fun n i => Node.setAttr n i.attr (C.text i d)) acc).map (·.1)).Nodup ∧
        ∀ x ∈ l.foldl (fun n i => Node.setAttr n i.attr (C.text i d)) acc, (∃ i ∈ k.writes, x.1 = i.attr) ∧ P x.2 := by
    intro l
    induction l with
    | nil => intro acc _ h1 h2; exact ⟨h1, h2⟩
    | cons i l ih =>
      intro acc hl h1 h2
      rw [List.foldl_cons]
      refine ih _ (fun j hj => hl j (by simp [hj])) (setAttr_nodup _ _ h1) ?_
      intro x hx
      rcases setAttr_mem hx with hx | hx
      · exact h2 x hx
      · rw [hx]; exact ⟨⟨i, hl i (by simp), rfl⟩, hP i (hl i (by simp))⟩
  exact key _ [] (fun i hi => (List.mem_filter.1 hi).1) (by simp) (by simp)

/-- A name of XML, in ASCII. -/
def nameOk (s : String) : Bool := Mvr.namesOk.nameB s && decide (∀ c ∈ s.toList, c.toNat < 256)

theorem nameOk_name {s : String} (h : nameOk s = true) : Xml.Spec.Name s.toList ∧ Octets s.toList := by
  unfold nameOk at h
  simp only [Bool.and_eq_true, decide_eq_true_eq] at h
  exact ⟨Mvr.nameB_name h.1, h.2⟩

theorem class_names : ∀ c ∈ classes, nameOk c.node = true ∧ ∀ s ∈ c.slots, ∀ b, s.wbox = some b → nameOk b = true := by
  have : ∀ c ∈ classes, (nameOk c.node && c.slots.all (fun s => match s.wbox with | some b => nameOk b | none => true)) = true := by
    decide +kernel
  intro c hc
  have h := this c hc
  simp only [Bool.and_eq_true, List.all_eq_true] at h
  refine ⟨h.1, fun s hs b hb => ?_⟩
  have := h.2 s hs
  rw [hb] at this
  exact this

theorem kind_names : ∀ k ∈ Node.kinds, ∀ i ∈ k.writes, nameOk i.attr = true := by decide +kernel

theorem sounds_append {a b : List Elem} (ha : Sounds a) (hb : Sounds b) : Sounds (a ++ b) := by
  induction a with
  | nil => exact hb
  | cons x a ih => rw [Sounds] at ha; exact ⟨ha.1, ih ha.2⟩

theorem dataAt_kid {D : Type} {cls : String} {d : D} {ks : List (List (Obj D))} {k : List (Obj D)} (hk : k ∈ ks) {o : Obj D} (ho : o ∈ k)
    {p : List (Nat × Nat)} {d' : D} (h : dataAt o p = some d') : ∃ q, dataAt (.mk cls d ks) q = some d' := by
  obtain ⟨i, hi, rfl⟩ := List.getElem_of_mem hk
  obtain ⟨j, hj, rfl⟩ := List.getElem_of_mem ho
  refine ⟨(i, j) :: p, ?_⟩
  unfold dataAt at h ⊢
  rw [Obj.at]
  simp only [List.getElem?_eq_getElem hi, List.getElem?_eq_getElem hj, Option.bind_some]
  exact h

theorem conv_legible (F : Fl) (i : Node.Item) (d : Members) (h : ∀ f, LegibleOut (d f)) : Legible ((conv F).text i d) := by
  unfold Node.Conv.text
  split
  · exact legible_nil
  · show Legible (match cvOf i.codec with | some cv => enc cv (d i.field) | none => [])
    split
    · exact enc_legible _ _ (h _)
    · exact legible_nil

theorem node_eq (F : Fl) (init : String → Members) (fresh : String → Obj Members) (c : Class) (hc : c ∈ classes) :
    (valueSchema F init fresh).node c.name = c.node ∧ (valueSchema F init fresh).slots c.name = c.slots := by
  have h : (valueSchema F init fresh).row c.name = some c := (table_ok c hc).2
  unfold Schema.node Schema.slots
  rw [h]
  exact ⟨rfl, rfl⟩

theorem write_sound (F : Fl) (init : String → Members) (fresh : String → Obj Members) (o : Obj Members) (h : Tree classes o)
    (hl : ∀ p d, dataAt o p = some d → ∀ f, LegibleOut (d f)) : Sound (write (valueSchema F init fresh) o) := by
  induction h with
  | mk c d ks hc hn hf hk ih =>
    obtain ⟨e1, e2⟩ := node_eq F init fresh c hc
    rw [write, e1, e2, Sound]
    have hd : ∀ f, LegibleOut (d f) := hl [] d rfl
    refine ⟨(nameOk_name (class_names c hc).1).1, (nameOk_name (class_names c hc).1).2, ?_, ?_, ?_⟩
    · intro a ha
      simp only [valueSchema] at ha
      split at ha
      · rename_i k hfk
        have hkm := List.mem_of_find?_eq_some hfk
        obtain ⟨-, h2⟩ := write_attrs k (conv F) (cond d) d Legible (fun i _ => conv_legible F i d hd)
        obtain ⟨⟨i, hi, hia⟩, hx⟩ := h2 a ha
        have := nameOk_name (kind_names k hkm i hi)
        rw [← hia] at this
        exact ⟨this.1, this.2, hx⟩
      · cases ha
    · simp only [valueSchema]
      split
      · rename_i k hfk
        exact (write_attrs k (conv F) (cond d) d Legible (fun i _ => conv_legible F i d hd)).1
      · simp
    · have ihs : ∀ k ∈ ks, ∀ o ∈ k, Sound (write (valueSchema F init fresh) o) := fun k hk' o ho =>
        ih k hk' o ho (fun p d' hd' f => by
          obtain ⟨q, hq⟩ := dataAt_kid (cls := c.name) (d := d) hk' ho hd'
          exact hl q d' hq f)
      have hs := (class_names c hc).2
      clear * - ihs hs
      have hlist : ∀ k : List (Obj Members), (∀ o ∈ k, Sound (write (valueSchema F init fresh) o)) → Sounds (writeList (valueSchema F init fresh) k) := by
        intro k
        induction k with
        | nil => intro _; rw [writeList]; trivial
        | cons o k ih => intro h; rw [writeList]; exact ⟨h o (by simp), ih (fun x hx => h x (by simp [hx]))⟩
      generalize c.slots = ss at hs
      induction ks generalizing ss with
      | nil => rw [writeSlots]; trivial
      | cons k ks ih =>
        cases ss with
        | nil => rw [writeSlots]; trivial
        | cons s ss =>
          rw [writeSlots]
          refine sounds_append ?_ (ih (fun k' hk' => ihs k' (by simp [hk'])) ss (fun s' hs' => hs s' (by simp [hs'])))
          have hk := hlist k (ihs k (by simp))
          unfold Slot.wrap
          split
          · exact hk
          · rename_i b hb
            have := nameOk_name (hs s (by simp) b hb)
            refine ⟨?_, trivial⟩
            rw [Sound]
            exact ⟨this.1, this.2, by simp, by simp, hk⟩

theorem legible_dmx (n : Nat) (v : Val) (h : LegibleVal v) (hr : ∀ t, v ≠ .rawHigh t) : LegibleOut (dmxText n v) := by
  cases v
  case link l => cases l <;> exact h
  case rawHigh t => exact absurd rfl (hr t)
  case dmx v => exact legible_pr (pr_dmx _ _ _)
  case high v b => exact legible_pr (pr_dmx _ _ _)
  all_goals exact h

theorem values_sound (F : Fl) (init : String → Members) (fresh : String → Obj Members) (o : Obj Members) (h : Ordinary init o)
    (hl : AllLegible o) : Sound (writeValues F init fresh o) := by
  unfold writeValues
  refine write_sound F init fresh _ (tree_walk _ o h.tree 2) ?_
  intro p d1 hd1 f
  obtain ⟨d, hd, rfl⟩ := dataAt_walk_inv hd1
  refine legible_dmx _ _ (hl p d hd f) ?_
  intro t e
  have hc : ∃ cls, classAt o p = some cls := by
    unfold dataAt at hd
    unfold classAt
    cases ha : Obj.at o p with
    | none => rw [ha] at hd; cases hd
    | some x => exact ⟨_, rfl⟩
  obtain ⟨cls, hc⟩ := hc
  have := h.kept p cls d hc hd f
  rw [e] at this
  exact this

/-! ### Levels -/

theorem depths_append (a b : List Elem) : depths (a ++ b) = max (depths a) (depths b) := by
  induction a with
  | nil => rw [List.nil_append, depths]; omega
  | cons e a ih => rw [List.cons_append, depths, depths, ih]; omega

mutual
theorem depth_write (S : Schema Members) : ∀ (o : Obj Members), (write S o).depth ≤ 2 * nested o
  | .mk cls d ks => by
    rw [write, Elem.depth, nested]
    have := depth_slots S (S.slots cls) ks
    omega

theorem depth_slots (S : Schema Members) : ∀ (ss : List Slot) (ks : List (List (Obj Members))),
    depths (writeSlots S ss ks) ≤ 1 + 2 * nestedAll ks
  | _, [] => by rw [writeSlots, depths]; omega
  | [], k :: ks => by rw [writeSlots, depths]; omega
  | s :: ss, k :: ks => by
    rw [writeSlots, depths_append, nestedAll]
    have h1 := depth_list S k
    have h2 := depth_slots S ss ks
    have h3 : depths (s.wrap (writeList S k)) ≤ 1 + depths (writeList S k) := by
      unfold Slot.wrap
      split
      · omega
      · rw [depths, depths, Elem.depth]; omega
    omega

theorem depth_list (S : Schema Members) : ∀ (k : List (Obj Members)), depths (writeList S k) ≤ 2 * nestedList k
  | [] => by rw [writeList, depths]; omega
  | o :: os => by
    rw [writeList, depths, nestedList]
    have h1 := depth_write S o
    have h2 := depth_list S os
    omega
end

mutual
theorem nested_walk (f : Nat → Members → Members) : ∀ (o : Obj Members) (n : Nat), nested (walk f n o) = nested o
  | .mk cls d ks, n => by rw [walk, nested, nested, nested_all f ks]

theorem nested_all (f : Nat → Members → Members) : ∀ (ks : List (List (Obj Members))) (n : Nat), nestedAll (walkAll f n ks) = nestedAll ks
  | [], n => by rw [walkAll]
  | k :: ks, n => by rw [walkAll, nestedAll, nestedAll, nested_list f k, nested_all f ks]

theorem nested_list (f : Nat → Members → Members) : ∀ (k : List (Obj Members)) (n : Nat), nestedList (walkList f n k) = nestedList k
  | [], n => by rw [walkList]
  | o :: os, n => by rw [walkList, nestedList, nestedList, nested_walk f o, nested_list f os]
end

theorem values_depth (F : Fl) (init : String → Members) (fresh : String → Obj Members) (o : Obj Members) :
    (writeValues F init fresh o).depth ≤ 2 * nested o := by
  unfold writeValues
  have := depth_write (valueSchema F init fresh) (walk (fun n d f => dmxText n (d f)) 2 o)
  rw [nested_walk] at this
  exact this

theorem nested_le (S : Schema Members) (hS : ∀ c ∈ classes, S.slots c.name = c.slots) (o : Obj Members) (h : Tree classes o) :
    nested o ≤ (write S o).depth := by
  induction h with
  | mk c d ks hc hn hf hk ih =>
    rw [write, Elem.depth, nested, hS c hc]
    have hl : ∀ k : List (Obj Members), (∀ o ∈ k, nested o ≤ (write S o).depth) → nestedList k ≤ depths (writeList S k) := by
      intro k
      induction k with
      | nil => intro _; rw [writeList, nestedList, depths]
      | cons x k ihk =>
        intro hx
        rw [writeList, nestedList, depths]
        have := hx x (by simp)
        have := ihk (fun o ho => hx o (by simp [ho]))
        omega
    have ha : ∀ (ss : List Slot) (ks : List (List (Obj Members))), ks.length = ss.length →
        (∀ k ∈ ks, ∀ o ∈ k, nested o ≤ (write S o).depth) → nestedAll ks ≤ depths (writeSlots S ss ks) := by
      intro ss ks
      induction ks generalizing ss with
      | nil => intro _ _; rw [nestedAll]; omega
      | cons k ks iha =>
        intro hlen hx
        cases ss with
        | nil => simp at hlen
        | cons s ss =>
          rw [writeSlots, depths_append, nestedAll]
          have h1 := hl k (hx k (by simp))
          have h2 := iha ss (by simpa using hlen) (fun k' hk' => hx k' (by simp [hk']))
          have h3 : depths (writeList S k) ≤ depths (s.wrap (writeList S k)) := by
            unfold Slot.wrap
            split
            · omega
            · rw [depths, depths, Elem.depth]; omega
          omega
    have := ha c.slots ks hn ih
    omega

theorem values_deep (F : Fl) (init : String → Members) (fresh : String → Obj Members) (o : Obj Members) (h : Tree classes o) :
    nested o ≤ (writeValues F init fresh o).depth := by
  unfold writeValues
  have := nested_le (valueSchema F init fresh) (fun c hc => (node_eq F init fresh c hc).2) _ (tree_walk (fun n d f => dmxText n (d f)) o h 2)
  rwa [nested_walk] at this

end Verif.Gdtf
