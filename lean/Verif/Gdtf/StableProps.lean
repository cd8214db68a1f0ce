import Verif.Gdtf.FileProps
import Verif.Gdtf.SaveProps
import Verif.Gdtf.StableSpec
import Verif.Mvr.StableProps

/-!
# C95: a GDTF description is saved as the same text again
-/

namespace Verif.Gdtf

open Spec
open Verif.Lookup (Txt)
open Verif.Str Verif.Real Verif.Text Verif.Dmx Verif.Enum
open Verif.Node (Item Kind kinds getAttr)
open Verif.Mvr (print_again)
open Verif.Mvr.Spec (Moderate ModerateV millionths)

/-! ### Values -/

theorem colors_again (F : Fl) (cs : List V3) (h1 : ∀ c ∈ cs, GoodV c) (h2 : ∀ c ∈ cs, ModerateV c) :
    writeColors (cs.map fun c => (⟨reread F c.x, reread F c.y, reread F c.z⟩ : V3)) = writeColors cs := by
  unfold writeColors
  rw [List.map_map]
  congr 1
  apply List.map_congr_left
  intro c hc
  have a := h1 c hc
  have b := h2 c hc
  simp only [Function.comp, reread, print_again F a.1 b.1, print_again F a.2.1 b.2.1, print_again F a.2.2 b.2.2]

/-- What is read from the text of a value has the same text. -/
theorem text_again (F : Fl) (n : Nat) (hn : IsReso n) (cv : Cv) (v init : Val) (hs : suits cv init = true) (ht : typeOf v = typeOf init)
    (hl : cv ≠ .link) (hk : Kept n v) (hm : ModerateVal v) : enc cv (dmxText n (again F n cv v init)) = enc cv (dmxText n v) := by
  have hc := value_back F n hn cv v init hs ht hl hk
  cases v
  case real x =>
    cases cv_of hs ht.symm
    obtain ⟨y, rfl⟩ := is_real ht.symm
    have hd : again F n .real (.real x) (.real y) = .real (atof F (printReal x)) := by
      simp only [again, dmxText, enc, dec, Option.getD_some, chars_back _ (small_real x), if_neg (printReal_ne_nil x), dmxValue]
    rw [hd]
    simp only [dmxText, enc, print_again F hk hm]
  case matrix m =>
    cases cv_of hs ht.symm
    obtain ⟨y, rfl⟩ := is_matrix ht.symm
    have hd : again F n .matrix (.matrix m) (.matrix y) = .matrix (m.map (reread F)) := by
      simp only [again, dmxText, enc, dec, Option.getD_some, chars_back _ (small_matrix m), C19_gdtf, result, dmxValue]
    rw [hd]
    obtain ⟨⟨a1, a2, a3⟩, ⟨b1, b2, b3⟩, ⟨c1, c2, c3⟩, d1, d2, d3⟩ := hk
    obtain ⟨⟨p1, p2, p3⟩, ⟨q1, q2, q3⟩, ⟨r1, r2, r3⟩, s1, s2, s3⟩ := hm
    simp only [dmxText, enc, reread, Mat.map, Mat.mapV, writeMatrixGdtf, print_again F a1 p1, print_again F a2 p2, print_again F a3 p3,
      print_again F b1 q1, print_again F b2 q2, print_again F b3 q3, print_again F c1 r1, print_again F c2 r2, print_again F c3 r3,
      print_again F d1 s1, print_again F d2 s2, print_again F d3 s3]
  case rotation m =>
    cases cv_of hs ht.symm
    obtain ⟨y, rfl⟩ := is_rotation ht.symm
    simp only [again, dmxText, enc, dec, Option.getD_some, chars_back _ (small_rotation m), C19_rotation, result, dmxValue]
    obtain ⟨⟨a1, a2, a3⟩, ⟨b1, b2, b3⟩, ⟨c1, c2, c3⟩⟩ := hk
    obtain ⟨⟨p1, p2, p3⟩, ⟨q1, q2, q3⟩, ⟨r1, r2, r3⟩⟩ := hm
    simp only [reread, Mat.mapV, Mat.map, writeRotation, print_again F a1 p1, print_again F a2 p2, print_again F a3 p3,
      print_again F b1 q1, print_again F b2 q2, print_again F b3 q3, print_again F c1 r1, print_again F c2 r2, print_again F c3 r3]
  case color c =>
    cases cv_of hs ht.symm
    obtain ⟨y, rfl⟩ := is_color ht.symm
    simp only [again, dmxText, enc, dec, Option.getD_some, chars_back _ (small_color c), C47_color, result, dmxValue]
    simp only [writeColor, reread, print_again F hk.1 hm.1, print_again F hk.2.1 hm.2.1, print_again F hk.2.2 hm.2.2]
  case colors cs =>
    cases cv_of hs ht.symm
    obtain ⟨y, rfl⟩ := is_colors ht.symm
    simp only [again, dmxText, enc, dec, Option.getD_some, chars_back _ (small_colors cs), C47_colors, result, dmxValue]
    rw [colors_again F cs hk hm]
  case point x y =>
    cases cv_of hs ht.symm
    obtain ⟨_, _, rfl⟩ := is_point ht.symm
    simp only [again, dmxText, enc, dec, Option.getD_some, chars_back _ (small_point x y), C47_point2, result, dmxValue]
    simp only [writePoint2, writeReals, List.map_cons, List.map_nil, reread, print_again F hk.1 hm.1, print_again F hk.2 hm.2]
  case vec w =>
    cases cv_of hs ht.symm
    obtain ⟨y, rfl⟩ := is_vec ht.symm
    simp only [again, dmxText, enc, dec, Option.getD_some, chars_back _ (small_vector w), C47_vector, result, dmxValue]
    simp only [writeVector, reread, print_again F hk.1 hm.1, print_again F hk.2.1 hm.2.1, print_again F hk.2.2 hm.2.2]
  case high x b =>
    cases cv_high hs ht.symm
    generalize again F n .dmx (.high x b) init = w at hc ⊢
    cases b with
    | false =>
      cases w <;> first | (rw [← (show Val.high x false = _ from hc)]; done) | cases (show Val.high x false = _ from hc)
    | true =>
      cases w with
      | high y b' =>
        have : b' = true := hc
        rw [this]
        rfl
      | _ => cases (show Val.high x true = _ from hc)
  all_goals
    generalize again F n cv _ init = w at hc ⊢
    cases w <;> first | (rw [← (show _ = _ from hc)]; done) | cases (show _ = _ from hc)

/-! ### Members -/

/-- What is left of a member. -/
theorem member_value (F : Fl) (init : String → Members) (hi : Suitable init) (k : Kind) (hk : k ∈ kinds) (n : Nat)
    (d : Members) (ht : ∀ f, typeOf (d f) = typeOf (init k.name f))
    (hm : k.name = "GdtfDmxChannelFunction" → ¬ (set? (d "fModeMaster_Channel") = true ∧ set? (d "fModeMaster_Function") = true))
    (hslash : k.name = "GdtfFixture" → NoSlash d) (i : Item) (hw : Writes k.name i) (hwi : i ∈ k.writes) (hg : i.guard.holds (cond d) = true) :
    ∃ cv, cvOf i.codec = some cv ∧ cv ≠ .link ∧ suits cv (init k.name i.field) = true ∧
      dmxValue F n (readBack F init k n d i.field) = again F n cv (d i.field) (init k.name i.field) := by
  have hw' := hw
  obtain ⟨k', hk', hname, -, href, hb, hd⟩ := hw
  have hset : ∀ v, set? (dmxText n v) = set? v := by intro v; cases v <;> rfl
  have hsp : k.name = "GdtfColorSpace" → typeOf (init k.name "fColorSpace") = .of .space := by
    intro e
    exact suits_of (hi k.name modeItem .space (by rw [e]; exact mode_writes) mode_cv) (by decide) (by decide)
  have hcond : cond (fun f => dmxText n (d f)) = cond d := funext (cond_dmxText n d)
  have hread := member_read F (init k.name) k hk (fun f => dmxText n (d f)) (by simpa only [hset] using hm) hsp i hwi
    (by rw [hcond]; exact hg) hb
  rw [hcond] at hread
  rcases hread with ⟨-, hread⟩ | ⟨u, hu, -⟩
  · obtain ⟨o1, o2, o3⟩ := table_own k hk i hwi
    have hcv : ∃ cv, cvOf i.codec = some cv ∧ cv ≠ .link := by
      have : ∀ k ∈ kinds, ∀ i ∈ k.writes, i.codec ≠ .blank → i.codec ≠ .ref → (match cvOf i.codec with | some cv => cv != .link | none => false) = true := by
        decide +kernel
      have := this k hk i hwi hb href
      cases hc : cvOf i.codec with
      | none => rw [hc] at this; cases this
      | some cv => rw [hc] at this; exact ⟨cv, rfl, by simpa using this⟩
    obtain ⟨cv, hcv, hl⟩ := hcv
    have hsu := hi k.name i cv hw' hcv
    have hconv : (conv F).dec i.codec (some ((conv F).enc i.codec (dmxText n (d i.field)))) (init k.name i.field) =
        dec F cv (some (enc cv (dmxText n (d i.field)))) (init k.name i.field) := by
      simp only [conv, hcv]
    rw [hconv] at hread
    refine ⟨cv, hcv, hl, hsu, ?_⟩
    unfold again readBack
    by_cases hfix : k.name = "GdtfFixture" ∧ i.field = "fName"
    · obtain ⟨hf1, hf2⟩ := hfix
      have hafter : ∀ (node : Attrs) (o : Members), after "GdtfFixture" node o "fName" = renamed (o "fName") := by
        intro node o
        unfold after put
        rw [if_neg (by decide), if_neg (by decide), if_pos rfl]
        simp
      have hkf : k = Node.kFixture := by
        have h1 := table_find k hk
        rw [hf1] at h1
        have h2 := table_find Node.kFixture (by decide +kernel)
        rw [show Node.kFixture.name = "GdtfFixture" from rfl, h1] at h2
        exact Option.some.inj h2
      have hcodec : ∀ i ∈ Node.kFixture.writes, i.field = "fName" → cvOf i.codec = some .text := by decide +kernel
      have h3 := hcodec i (by rw [← hkf]; exact hwi) hf2
      rw [hcv] at h3
      cases h3
      rw [hf2] at hsu hread ⊢
      have h5 := ht "fName"
      rw [suits_of hsu (by decide) (by decide)] at h5
      obtain ⟨t, htx⟩ := is_text h5
      rw [htx] at hread ⊢
      rw [hf1] at hread ⊢
      rw [hafter, unread_other _ _ _ _ _ (by decide), hread]
      have hno := hslash hf1 t htx
      simp only [dmxText, enc, dec, renamed, slashes_id t hno, dmxValue]
    · rw [after_other _ _ _ _ o1 o2 o3 (fun h1 h2 => hfix ⟨h1, h2⟩), unread_written F k hk n d _ _ hm i hwi hg, hread]
  · exact absurd hu (hd u)

/-! ### Conditions -/

/-- The condition around a statement. -/
def guardName : Node.Guard → Option String
  | .always => none
  | .on c => some c
  | .off c => some c

theorem guard_congr {g : Node.Guard} {w w' : String → Bool} (h : ∀ c, guardName g = some c → w c = w' c) : g.holds w = g.holds w' := by
  cases g with
  | always => rfl
  | on c => exact h c rfl
  | off c => simp only [Node.Guard.holds]; rw [h c rfl]

/-- The conditions that do not ask whether there is a reference. -/
def ownConds : List (String × String) :=
  [("GdtfAttribute", "fHasColor"), ("GdtfDmxChannelSet", "fSetPhysical"), ("GdtfFixture", "fHasLinkedGuid"), ("GdtfWheelSlot", "fGobo != \"\""),
   ("GdtfWheelSlot", "fDuration != 0.0"), ("GdtfWheelSlot", "fWidth != 0"), ("GdtfWheelSlot", "fHeight != 0"), ("GdtfWheelSlot", "fFPS != 0"),
   ("GdtfColorSpace", "fColorSpace == EGdtfColorSpace::Custom")]

theorem table_conds : ∀ k ∈ kinds, ∀ i ∈ k.writes, ∀ c ∈ guardName i.guard,
    Node.Spec.deferred.any (fun p => p.1 == k.name && p.2.2 == c) = true ∨ (k.name, c) ∈ ownConds := by
  decide +kernel

theorem table_refs : ∀ k ∈ kinds, ∀ i ∈ k.writes, i.codec = .ref → Node.Spec.deferred.any (fun p => p.1 == k.name && p.2.2 == i.field) = true := by
  decide +kernel

theorem cond_plain : ∀ p ∈ Node.Spec.deferred, ∀ d : Members, cond d p.2.2 = set? (d p.2.2) := by
  have h : ∀ p ∈ Node.Spec.deferred, p.2.2 ≠ "fColorSpace == EGdtfColorSpace::Custom" ∧ p.2.2 ≠ "fDuration != 0.0" ∧ p.2.2 ≠ "fWidth != 0" ∧
      p.2.2 ≠ "fHeight != 0" ∧ p.2.2 ≠ "fFPS != 0" ∧ p.2.2 ≠ "fGobo != \"\"" := by decide +kernel
  intro p hp d
  obtain ⟨h1, h2, h3, h4, h5, h6⟩ := h p hp
  unfold cond
  rw [if_neg h1, if_neg h2, if_neg h3, if_neg h4, if_neg h5, if_neg h6]

theorem later_of_any {cls f : String} (h : Node.Spec.deferred.any (fun p => p.1 == cls && p.2.2 == f) = true) : Later cls f := by
  obtain ⟨p, hp, he⟩ := List.any_eq_true.1 h
  rw [Bool.and_eq_true, beq_iff_eq, beq_iff_eq] at he
  refine ⟨p.2.1, ?_⟩
  rw [← he.1, ← he.2]
  exact hp

/-- The statements of a class give the same attributes. -/
theorem write_congr (k : Kind) (C : Node.Conv Val) (w w' : String → Bool) (o o' : Members)
    (h1 : ∀ i ∈ k.writes, i.guard.holds w = i.guard.holds w') (h2 : ∀ i ∈ k.writes, i.guard.holds w' = true → C.text i o = C.text i o') :
    k.write C w o = k.write C w' o' := by
  unfold Kind.write
  rw [List.filter_congr h1]
  have gen : ∀ (l : List Item) (n : List (String × Txt)), (∀ i ∈ l, C.text i o = C.text i o') →
      l.foldl (fun n i => Node.setAttr n i.attr (C.text i o)) n = l.foldl (fun n i => Node.setAttr n i.attr (C.text i o')) n := by
    intro l
    induction l with
    | nil => intro n _; rfl
    | cons i l ih =>
      intro n h
      rw [List.foldl_cons, List.foldl_cons, h i (List.mem_cons_self ..)]
      exact ih _ (fun j hj => h j (List.mem_cons_of_mem _ hj))
  apply gen
  intro i hi
  obtain ⟨hi, hg⟩ := List.mem_filter.1 hi
  exact h2 i hi hg

/-! ### Trees of the same shape -/

/-- The same objects in the same places, with any values. -/
inductive Shape : Obj Members → Obj Members → Prop
  | mk (cls : String) (d d' : Members) (ks ks' : List (List (Obj Members))) (hl : ks.length = ks'.length)
      (hn : ∀ (i : Nat) k k', ks[i]? = some k → ks'[i]? = some k' → k.length = k'.length)
      (hk : ∀ (i j : Nat) k k' o o', ks[i]? = some k → ks'[i]? = some k' → k[j]? = some o → k'[j]? = some o' → Shape o o') :
      Shape (.mk cls d ks) (.mk cls d' ks')

theorem shape_map (cls : String) (d d' : Members) (ks : List (List (Obj Members))) (g : Obj Members → Obj Members)
    (h : ∀ k ∈ ks, ∀ x ∈ k, Shape x (g x)) : Shape (.mk cls d ks) (.mk cls d' (ks.map (fun k => k.map g))) := by
  refine .mk _ _ _ _ _ (by simp) ?_ ?_
  · intro i k k' h1 h2
    rw [List.getElem?_map, h1] at h2
    cases h2
    simp
  · intro i j k k' x x' h1 h2 h3 h4
    rw [List.getElem?_map, h1] at h2
    cases h2
    rw [List.getElem?_map, h3] at h4
    cases h4
    exact h k (List.mem_of_getElem? h1) x (List.mem_of_getElem? h3)

theorem shape_trans {a b c : Obj Members} (h : Shape a b) : Shape b c → Shape a c := by
  induction h generalizing c with
  | mk cls d d' ks ks' hl hn hk ih =>
    intro h2
    cases h2 with
    | mk _ _ d2 _ ks2 hl2 hn2 hk2 =>
      refine .mk _ _ _ _ _ (hl.trans hl2) ?_ ?_
      · intro i k k2 h1 h3
        have hi : i < ks'.length := by rw [← hl]; exact (List.getElem?_eq_some_iff.1 h1).1
        have h4 : ks'[i]? = some ks'[i] := List.getElem?_eq_getElem hi
        exact (hn i _ _ h1 h4).trans (hn2 i _ _ h4 h3)
      · intro i j k k2 o o2 h1 h3 h5 h6
        have hi : i < ks'.length := by rw [← hl]; exact (List.getElem?_eq_some_iff.1 h1).1
        have h4 : ks'[i]? = some ks'[i] := List.getElem?_eq_getElem hi
        have hj : j < ks'[i].length := by rw [← hn i _ _ h1 h4]; exact (List.getElem?_eq_some_iff.1 h5).1
        have h7 : ks'[i][j]? = some ks'[i][j] := List.getElem?_eq_getElem hj
        exact ih i j _ _ _ _ h1 h4 h5 h7 (hk2 i j _ _ _ _ h4 h3 h7 h6)

theorem shape_resolved {m : Memory} {a b : Obj Members} (h : Resolved m a b) : Shape a b := by
  induction h with
  | mk cls d d' ks ks' hd hl hn hk ih => exact .mk _ _ _ _ _ hl hn ih

theorem shape_walk (f : Nat → Members → Members) {o : Obj Members} (h : Tree classes o) : ∀ n, Shape o (walk f n o) := by
  induction h with
  | mk c d ks hc hn hf hk ih =>
    intro n
    rw [walk, walkAll_map]
    exact shape_map _ _ _ _ _ (fun k hk x hx => ih k hk x hx _)

theorem noKid {o : Obj Members} {drop : String} {c : String} {d : Members} {ks : List (List (Obj Members))} (h : ∀ q, classAt (.mk c d ks) q ≠ some drop)
    {k : List (Obj Members)} (hk : k ∈ ks) (ho : o ∈ k) : ∀ q, classAt o q ≠ some drop := by
  intro q hq
  obtain ⟨i, hi⟩ := List.getElem?_of_mem hk
  obtain ⟨j, hj⟩ := List.getElem?_of_mem ho
  apply h ((i, j) :: q)
  simp only [classAt, Obj.at, hi, hj, Option.bind_some]
  exact hq

theorem shape_change (f : String → Members → Members) (drop : String) {o : Obj Members} (h : Tree classes o) :
    (∀ q, classAt o q ≠ some drop) → Shape o (change f drop o) := by
  induction h with
  | mk c d ks hc hn hf hk ih =>
    intro hp
    rw [change, changeAll_eq]
    have : ks.map (changeList f drop) = ks.map (fun k => k.map (change f drop)) := by
      apply List.map_congr_left
      intro k hk
      apply changeList_id
      intro o ho
      have := noKid hp hk ho []
      simpa [classAt, Obj.at] using this
    rw [this]
    exact shape_map _ _ _ _ _ (fun k hk x hx => ih k hk x hx (noKid hp hk hx))

theorem shape_again (F : Fl) (init : String → Members) (fresh : String → Obj Members) (o : Obj Members) (h : Ordinary init o) :
    Shape o (readValues F init fresh o.cls (writeValues F init fresh o)) := by
  have ht := tree_walk (fun n d f => dmxText n (d f)) o h.tree 2
  have hp := C63_partial (valueSchema F init fresh) rfl _ ht
  rw [walk_cls] at hp
  have hno : ∀ q, classAt (walk (fun n d f => dmxText n (d f)) 2 o) q ≠ some "GdtfUserPreset" := by
    intro q; rw [class_walk]; exact h.noPreset q
  have h1 := shape_walk (fun n d f => dmxText n (d f)) h.tree 2
  have h2 := shape_change (fun cls d => (valueSchema F init fresh).dec cls ((valueSchema F init fresh).enc cls d)) "GdtfUserPreset" ht hno
  unfold readValues writeValues
  rw [hp]
  have h3 : ∀ x : Obj Members, ∀ y, Shape y x → Shape y (walk (fun n d f => dmxValue F n (d f)) 2 x) := by
    intro x y hxy
    have : ∀ (f : Nat → Members → Members) (y x : Obj Members), Shape y x → ∀ n, Shape y (walk f n x) := by
      intro f y x h
      induction h with
      | mk cls d d' ks ks' hl hn hk ih =>
        intro n
        rw [walk, walkAll_map]
        refine .mk _ _ _ _ _ (by simpa using hl) ?_ ?_
        · intro i k k' h1 h2
          rw [List.getElem?_map] at h2
          obtain ⟨k2, h3, rfl⟩ := Option.map_eq_some_iff.1 h2
          simpa using hn i k k2 h1 h3
        · intro i j k k' o o' h1 h2 h4 h5
          rw [List.getElem?_map] at h2
          obtain ⟨k2, h3, rfl⟩ := Option.map_eq_some_iff.1 h2
          rw [List.getElem?_map] at h5
          obtain ⟨o2, h6, rfl⟩ := Option.map_eq_some_iff.1 h5
          exact ih i j k k2 o o2 h1 h3 h4 h6 _
    exact this _ y x hxy 2
  exact h3 _ _ (shape_trans h1 h2)

theorem shape_slots {S : Schema Members} {f : Obj Members → Obj Members} {g : Obj Members → Obj Members} :
    ∀ (ss : List Slot) (ks ks' : List (List (Obj Members))), ks.length = ks'.length →
    (∀ (i : Nat) k k', ks[i]? = some k → ks'[i]? = some k' → k.length = k'.length) →
    (∀ (i j : Nat) k k' o o', ks[i]? = some k → ks'[i]? = some k' → k[j]? = some o → k'[j]? = some o' → write S (g o') = write S (f o)) →
    writeSlots S ss (ks'.map (fun k => k.map g)) = writeSlots S ss (ks.map (fun k => k.map f)) := by
  intro ss ks
  induction ks generalizing ss with
  | nil =>
    intro ks' hl _ _
    cases ks' with
    | nil => rfl
    | cons k ks' => cases hl
  | cons k ks ih =>
    intro ks' hl hn hk
    cases ks' with
    | nil => cases hl
    | cons k' ks' =>
      have hlist : writeList S (k'.map g) = writeList S (k.map f) := by
        have hlen := hn 0 k k' rfl rfl
        have hw := hk 0
        simp only [List.getElem?_cons_zero, Option.some.injEq] at hw
        have : ∀ (k k' : List (Obj Members)), k.length = k'.length → (∀ (j : Nat) o o', k[j]? = some o → k'[j]? = some o' → write S (g o') = write S (f o)) →
            writeList S (k'.map g) = writeList S (k.map f) := by
          intro k
          induction k with
          | nil => intro k' h _; cases k' with | nil => rfl | cons a b => cases h
          | cons a k ih =>
            intro k' h hw
            cases k' with
            | nil => cases h
            | cons b k' =>
              rw [List.map_cons, List.map_cons, writeList, writeList, hw 0 a b rfl rfl,
                ih k' (by simpa using h) (fun j o o' h1 h2 => hw (j + 1) o o' (by simpa using h1) (by simpa using h2))]
        exact this k k' hlen (fun j o o' h1 h2 => hw j k k' o o' rfl rfl h1 h2)
      rw [List.map_cons, List.map_cons, writeSlots.eq_def, writeSlots.eq_def]
      cases ss with
      | nil => rfl
      | cons s ss =>
        simp only
        rw [hlist, ih ss ks' (by simpa using hl) (fun i a b h1 h2 => hn (i + 1) a b (by simpa using h1) (by simpa using h2))
          (fun i j a b o o' h1 h2 => hk (i + 1) j a b o o' (by simpa using h1) (by simpa using h2))]

/-- Two descriptions of the same shape whose objects have the same attributes are written as the same tree. -/
theorem shape_write (S : Schema Members) (T : Nat → Members → Members) {o o2 : Obj Members} (h : Shape o o2) : ∀ n,
    (∀ p cls d d2, classAt o p = some cls → dataAt o p = some d → dataAt o2 p = some d2 →
      S.enc cls (T (bytesAt n o p) d2) = S.enc cls (T (bytesAt n o p) d) ∧
        (cls = "GdtfDmxChannel" → d2 "fCoarse+fFine+fUltra+fUber" = d "fCoarse+fFine+fUltra+fUber")) →
    write S (walk T n o2) = write S (walk T n o) := by
  induction h with
  | mk cls d d2 ks ks2 hl hn hk ih =>
    intro n hp
    have h0 := hp [] cls d d2 rfl rfl rfl
    have hr : reso n cls d2 = reso n cls d := by
      unfold reso
      split
      · rename_i e; rw [h0.2 e]
      · rfl
    have hb : bytesAt n (.mk cls d ks) [] = reso n cls d := bytesAt_nil n cls d ks
    rw [walk, walk, write, write, hr, ← hb, h0.1, walkAll_map, walkAll_map]
    congr 1
    apply shape_slots _ _ _ hl hn
    intro i j k k' o o' h1 h2 h3 h4
    apply ih i j k k' o o' h1 h2 h3 h4
    intro p c e e2 hc he he2
    have := hp ((i, j) :: p) c e e2 (by simp only [classAt, Obj.at, h1, h3, Option.bind_some]; exact hc)
      (by simp only [dataAt, Obj.at, h1, h3, Option.bind_some]; exact he) (by simp only [dataAt, Obj.at, h2, h4, Option.bind_some]; exact he2)
    have hb2 : bytesAt n (.mk cls d ks) ((i, j) :: p) = bytesAt (bytesAt n (.mk cls d ks) []) o p := by
      rw [bytesAt_cons, hb]
      simp only [h1, h3, Option.bind_some]
    rw [hb2] at this
    exact this

/-! ### One object -/

theorem flag_type (m : Memory) (cls f : String) (hcf : (cls, f) ∈ [("GdtfAttribute", "fHasColor"), ("GdtfDmxChannelSet", "fSetPhysical"), ("GdtfFixture", "fHasLinkedGuid")]) :
    ctor m cls f = .flag false := by
  have h : ∀ p ∈ [("GdtfAttribute", "fHasColor"), ("GdtfDmxChannelSet", "fSetPhysical"), ("GdtfFixture", "fHasLinkedGuid")],
      unset.find? (fun q => q.1 == p) = none ∧ made p.1 p.2 = .flag false := by decide +kernel
  rw [ctor_made m _ _ (h _ hcf).1]
  exact (h _ hcf).2

theorem flag_later (cls f : String) (hcf : (cls, f) ∈ [("GdtfAttribute", "fHasColor"), ("GdtfDmxChannelSet", "fSetPhysical"), ("GdtfFixture", "fHasLinkedGuid")]) :
    ¬ Later cls f := by
  have h : ∀ p ∈ [("GdtfAttribute", "fHasColor"), ("GdtfDmxChannelSet", "fSetPhysical"), ("GdtfFixture", "fHasLinkedGuid")],
      ∀ q ∈ Node.Spec.deferred, q.2.2 ≠ p.2 := by decide +kernel
  rintro ⟨u, hu⟩
  exact h _ hcf _ hu rfl

theorem slot_later (f : String) (hf : f ∈ ["fGobo", "fDuration", "fWidth", "fHeight", "fFPS"]) : ¬ Later "GdtfWheelSlot" f := by
  have h : ∀ f ∈ ["fGobo", "fDuration", "fWidth", "fHeight", "fFPS"], ∀ q ∈ Node.Spec.deferred, q.1 = "GdtfWheelSlot" → q.2.2 ≠ f := by decide +kernel
  rintro ⟨u, hu⟩
  exact h _ hf _ hu rfl rfl

theorem slot_zero (m : Memory) : ∀ i ∈ slotItems, nonzero (ctor m "GdtfWheelSlot" i.field) = false := by
  have h1 : ∀ i ∈ slotItems, unset.find? (fun p => p.1 == ("GdtfWheelSlot", i.field)) = none ∧ nonzero (made "GdtfWheelSlot" i.field) = false := by
    decide +kernel
  intro i hi
  rw [ctor_made m _ _ (h1 i hi).1]
  exact (h1 i hi).2

/-- The statement for the duration of a wheel slot. -/
def durationItem : Item := ⟨"Duration", "fDuration", .val "ConvertDouble", .on "fDuration != 0.0"⟩

theorem printed_nonzero (F : Fl) {x : Dbl} (h1 : 0 ≤ x.mag) (h2 : Moderate x) (h3 : millionths x ≠ 0) : (atof F (printReal x)).mag ≠ 0 := by
  intro h
  apply h3
  apply Mvr.shown_near F h1 h2 0 (.inl rfl)
  unfold Mvr.signed
  rw [h]
  split <;> norm_num

theorem duration_again (F : Fl) (m : Memory) (n : Nat) (d : Members) (ht : ∀ f, typeOf (d f) = typeOf (ctor m "GdtfWheelSlot" f)) (hk : ∀ f, Kept n (d f))
    (hm : ModerateVal (d "fDuration")) (hz : ∀ x, d "fDuration" = .real x → millionths x = 0 → x.mag = 0) :
    nonzero (dmxValue F n (readBack F (ctor m) Node.kWheelSlot n d "fDuration")) = nonzero (d "fDuration") := by
  have hin : durationItem ∈ slotItems := by decide +kernel
  have hctor : ctor m "GdtfWheelSlot" "fDuration" = .real ⟨false, 0⟩ := by
    rw [ctor_made m _ _ (by decide +kernel)]
    decide +kernel
  have ht' := ht "fDuration"
  rw [hctor] at ht'
  obtain ⟨x, hx⟩ := is_real ht'
  have hgd : durationItem.guard.holds (cond d) = nonzero (d "fDuration") := slot_cond d durationItem hin
  by_cases hg : durationItem.guard.holds (cond d) = true
  · obtain ⟨cv, hcv, -, -, hv⟩ := member_value F (ctor m) (C85_suitable m) Node.kWheelSlot (by decide +kernel) n d ht (fun e => absurd e (by decide))
      (fun e => absurd e (by decide)) durationItem (slot_writes _ hin) (by decide +kernel) hg
    have : cv = .real := by
      have h : cvOf durationItem.codec = some .real := by decide +kernel
      rw [h] at hcv
      exact (Option.some.inj hcv).symm
    subst this
    rw [show durationItem.field = "fDuration" from rfl, show Node.kWheelSlot.name = "GdtfWheelSlot" from rfl, hctor, hx] at hv
    rw [hv, ← hgd, hg]
    simp only [again, dmxText, enc, dec, Option.getD_some, chars_back _ (small_real x), if_neg (printReal_ne_nil x), dmxValue, nonzero]
    have hk' := hk "fDuration"
    rw [hx] at hk' hm
    rw [hgd, hx] at hg
    have hne : x.mag ≠ 0 := by simpa [nonzero] using hg
    have := printed_nonzero F hk' hm (fun e => hne (hz x hx e))
    simpa using this
  · have hg' : nonzero (d "fDuration") = false := by rw [← hgd]; simpa using hg
    obtain ⟨h1, h2, h3, h4, h5, h6, h7, h8, h9⟩ := slot_table durationItem hin
    rw [hg']
    unfold readBack
    rw [after_other _ _ _ "fDuration" h7 h8 h9 (fun e => absurd e (by decide))]
    have h10 : ∀ s ∈ skips, s.1 = Node.kWheelSlot.name → s.2.2 ≠ "fDuration" := by decide +kernel
    rw [unread_other _ _ _ _ _ h10]
    have hrm := readNow_mem F Node.kWheelSlot (by decide +kernel) (Node.kWheelSlot.write (conv F) (cond d) (fun f => dmxText n (d f)))
      (ctor m Node.kWheelSlot.name) _ h5 rfl
    rw [show durationItem.field = "fDuration" from rfl] at hrm
    simp only at hrm
    rw [hrm, getAttr_none Node.kWheelSlot (conv F) (cond d) _ durationItem.attr (by
      intro j hj ha
      rw [h6 j hj ha]
      simpa using hg), show Node.kWheelSlot.name = "GdtfWheelSlot" from rfl, hctor]
    have hcv : cvOf durationItem.codec = some .real := by decide +kernel
    simp only [conv, hcv, dec, dmxValue, Option.getD_none, toChars, List.map_nil, if_true, nonzero]
    simp

/-- An object is written with the attributes it was written with. -/
theorem object_again (F : Fl) (m : Memory) (o : Obj Members) (h : Ordinary (ctor m) o) (hs : Steady o) (p : List (Nat × Nat)) (k : Kind) (hk : k ∈ kinds)
    (d d2 : Members) (hc : classAt o p = some k.name) (hd : dataAt o p = some d)
    (h1 : ∀ f, ¬ Later k.name f → d2 f = dmxValue F (bytesAt 2 o p) (readBack F (ctor m) k (bytesAt 2 o p) d f))
    (h2 : ∀ f, Later k.name f → d2 f = d f) :
    k.write (conv F) (cond d2) (fun f => dmxText (bytesAt 2 o p) (d2 f)) = k.write (conv F) (cond d) (fun f => dmxText (bytesAt 2 o p) (d f)) := by
  have hback := place_back F (ctor m) (madeObj m) (C85_suitable m) o h p k hk d hc hd
  have hreso := bytesAt_reso p 2 o (by unfold IsReso; omega)
  have hty := h.typed p _ d hc hd
  have hkept := h.kept p _ d hc hd
  have hflag : ∀ f, (k.name, f) ∈ [("GdtfAttribute", "fHasColor"), ("GdtfDmxChannelSet", "fSetPhysical"), ("GdtfFixture", "fHasLinkedGuid")] → d2 f = d f := by
    intro f hf
    have hct := flag_type m _ _ hf
    have ht := hty f
    rw [hct] at ht
    obtain ⟨b, hb⟩ := is_flag ht
    rw [h1 f (flag_later _ _ hf), hb]
    simp only [List.mem_cons, Prod.mk.injEq, List.not_mem_nil, or_false] at hf
    have : ∃ d', dataAt (readValues F (ctor m) (madeObj m) o.cls (writeValues F (ctor m) (madeObj m) o)) p = some d' ∧ d' f = .flag b := by
      rcases hf with ⟨hn, rfl⟩ | ⟨hn, rfl⟩ | ⟨hn, rfl⟩
      · exact C80_has_color F (ctor m) (madeObj m) (C85_suitable m) o h p d (by rw [hc, hn]) hd b hb (by rw [← hn]; exact hct)
      · exact C80_set_physical F (ctor m) (madeObj m) (C85_suitable m) o h p d (by rw [hc, hn]) hd b hb
      · exact C80_linked_fixture F (ctor m) (madeObj m) (C85_suitable m) o h p d (by rw [hc, hn]) hd b hb
    obtain ⟨d', h3, h4⟩ := this
    rw [hback] at h3
    cases h3
    exact h4
  have hslot : k.name = "GdtfWheelSlot" → ∀ f ∈ ["fGobo", "fDuration", "fWidth", "fHeight", "fFPS"], nonzero (d2 f) = nonzero (d f) := by
    intro hn f hf
    rw [h1 f (by rw [hn]; exact slot_later f hf)]
    by_cases hdur : f = "fDuration"
    · subst hdur
      have hkw : k = Node.kWheelSlot := by
        have e1 := table_find k hk
        rw [hn] at e1
        have e2 := table_find Node.kWheelSlot (by decide +kernel)
        rw [show Node.kWheelSlot.name = "GdtfWheelSlot" from rfl, e1] at e2
        exact Option.some.inj e2
      subst hkw
      exact duration_again F m _ d hty hkept (hs.numbers p _ d hc hd durationItem (slot_writes _ (by decide +kernel)))
        (fun x hx => hs.durations p d x hc hd hx)
    · obtain ⟨d', h3, h4⟩ := C80_wheel_slot F (ctor m) (madeObj m) (C85_suitable m) (slot_zero m) o h p d (by rw [hc, hn]) hd f hf
      rw [hback] at h3
      cases h3
      have ht := hty f
      have hctor : ∀ f ∈ ["fGobo", "fDuration", "fWidth", "fHeight", "fFPS"], f ≠ "fDuration" →
          unset.find? (fun q => q.1 == ("GdtfWheelSlot", f)) = none ∧ (typeOf (made "GdtfWheelSlot" f) = .of .text ∨ typeOf (made "GdtfWheelSlot" f) = .int .size) := by
        decide +kernel
      obtain ⟨e1, e2⟩ := hctor f hf hdur
      rw [hn, ctor_made m _ _ e1] at ht
      have h5 : d f = dmxValue F (bytesAt 2 o p) (readBack F (ctor m) k (bytesAt 2 o p) d f) := by
        rcases e2 with e2 | e2
        · rw [e2] at ht
          obtain ⟨t, htx⟩ := is_text ht
          rw [htx] at h4 ⊢
          simp only at h4
          generalize dmxValue F (bytesAt 2 o p) (readBack F (ctor m) k (bytesAt 2 o p) d f) = w at h4 ⊢
          cases w <;> first | exact h4 | exact h4.elim | exact congrArg _ h4 | (simp [Close] at h4; simp [h4]; done)
        · rw [e2] at ht
          obtain ⟨t, htx⟩ := is_int ht
          rw [htx] at h4 ⊢
          simp only at h4
          generalize dmxValue F (bytesAt 2 o p) (readBack F (ctor m) k (bytesAt 2 o p) d f) = w at h4 ⊢
          cases w <;> first | exact h4 | exact h4.elim | exact congrArg _ h4 | (simp [Close] at h4; simp [h4]; done)
      rw [← h5]
  have hcond : ∀ i ∈ k.writes, ∀ c, guardName i.guard = some c → cond d2 c = cond d c := by
    intro i hi c hgc
    rcases table_conds k hk i hi c hgc with hl | hown
    · obtain ⟨u, hu⟩ := later_of_any hl
      have e1 := cond_plain _ hu d
      have e2 := cond_plain _ hu d2
      simp only at e1 e2
      rw [e1, e2, h2 c ⟨u, hu⟩]
    · simp only [ownConds, List.mem_cons, Prod.mk.injEq, List.not_mem_nil, or_false] at hown
      rcases hown with ⟨hn, rfl⟩ | ⟨hn, rfl⟩ | ⟨hn, rfl⟩ | ⟨hn, rfl⟩ | ⟨hn, rfl⟩ | ⟨hn, rfl⟩ | ⟨hn, rfl⟩ | ⟨hn, rfl⟩ | ⟨hn, rfl⟩
      · have := hflag "fHasColor" (by rw [hn]; decide)
        simp [cond, this]
      · have := hflag "fSetPhysical" (by rw [hn]; decide)
        simp [cond, this]
      · have := hflag "fHasLinkedGuid" (by rw [hn]; decide)
        simp [cond, this]
      · simpa [cond] using hslot hn "fGobo" (by decide)
      · simpa [cond] using hslot hn "fDuration" (by decide)
      · simpa [cond] using hslot hn "fWidth" (by decide)
      · simpa [cond] using hslot hn "fHeight" (by decide)
      · simpa [cond] using hslot hn "fFPS" (by decide)
      · obtain ⟨d', h3, h4⟩ := C80_values_partial F (ctor m) (madeObj m) (C85_suitable m) o h p k.name d hc hd (fun e => absurd (hn ▸ e) (by decide))
          modeItem (by rw [hn]; exact mode_writes) rfl
        rw [hback] at h3
        cases h3
        have ht := hty "fColorSpace"
        rw [hn, show "fColorSpace" = modeItem.field from rfl, suits_of (C85_suitable m "GdtfColorSpace" modeItem .space mode_writes mode_cv) (by decide) (by decide)] at ht
        have hnl : ¬ Later k.name "fColorSpace" := by
          rintro ⟨u, hu⟩
          have : ∀ p ∈ Node.Spec.deferred, p.1 ≠ "GdtfColorSpace" := by decide +kernel
          exact this _ hu hn
        obtain ⟨v, hv⟩ := is_space ht
        have e := h1 "fColorSpace" hnl
        rw [show modeItem.field = "fColorSpace" from rfl] at h4
        simp only at h4
        rw [← e, show d "fColorSpace" = _ from hv] at h4
        have e3 : d2 "fColorSpace" = .space v := by
          generalize d2 "fColorSpace" = w at h4
          cases w <;> first | exact h4.symm | (simp [Close] at h4; simp [h4]; done)
        simp [cond, e3, show d "fColorSpace" = _ from hv]
  apply write_congr
  · intro i hi
    exact guard_congr (hcond i hi)
  · intro i hi hg
    unfold Node.Conv.text
    split
    · rfl
    · rename_i hb
      by_cases hl : Later k.name i.field
      · simp only [h2 i.field hl]
      · have hw : Writes k.name i := ⟨k, hk, rfl, hi, fun e => hl (later_of_any (table_refs k hk i hi e)), hb, fun u hu => hl ⟨u, hu⟩⟩
        obtain ⟨cv, hcv, hlk, hsu, hv⟩ := member_value F (ctor m) (C85_suitable m) k hk (bytesAt 2 o p) d hty
          (fun e => h.master p d (by rw [← e]; exact hc) hd) (fun e => hs.names p d (by rw [← e]; exact hc) hd) i hw hi hg
        simp only [conv, hcv]
        rw [h1 i.field hl, hv]
        exact text_again F _ hreso cv _ _ hsu (hty _) hlk (hkept _) (hs.numbers p _ d hc hd i hw)

/-! ### The theorems -/

/-- **C95.** Save a description, read it, resolve its references and save it again: if resolving finds what was saved, the second file has the same nodes
with the same attributes in the same order as the first. -/
theorem C95_same_partial (F : Fl) (m : Memory) (o : Obj Members) (h : Ordinary (ctor m) o) (hs : Steady o) (o2 : Obj Members)
    (hr : Resolved m (readValues F (ctor m) (madeObj m) o.cls (writeValues F (ctor m) (madeObj m) o)) o2) (hl : LinksKept o o2) :
    writeValues F (ctor m) (madeObj m) o2 = writeValues F (ctor m) (madeObj m) o := by
  have hsh := shape_trans (shape_again F (ctor m) (madeObj m) o h) (shape_resolved hr)
  unfold writeValues
  apply shape_write _ _ hsh 2
  intro p cls d d2 hc hd hd2
  have hcm : ∀ k ∈ kinds, k.name = cls → ∃ db, classAt (readValues F (ctor m) (madeObj m) o.cls (writeValues F (ctor m) (madeObj m) o)) p = some cls ∧
      dataAt (readValues F (ctor m) (madeObj m) o.cls (writeValues F (ctor m) (madeObj m) o)) p = some db ∧
      db = (fun f => dmxValue F (bytesAt 2 o p) (readBack F (ctor m) k (bytesAt 2 o p) d f)) := by
    intro k hk e
    refine ⟨_, ?_, place_back F (ctor m) (madeObj m) (C85_suitable m) o h p k hk d (by rw [hc, e]) hd, rfl⟩
    have hp := C63_places (valueSchema F (ctor m) (madeObj m)) rfl (walk (fun n d f => dmxText n (d f)) 2 o) (tree_walk _ o h.tree 2)
      (by intro q; rw [class_walk]; exact h.noPreset q) p
    rw [walk_cls, class_walk, hc] at hp
    unfold readValues
    rw [class_walk]
    exact hp
  have hlink : ∀ f, Later cls f → d2 f = d f := hl p cls d d2 hc hd hd2
  have hrest : ∀ k ∈ kinds, k.name = cls → ∀ f, ¬ Later cls f → d2 f = dmxValue F (bytesAt 2 o p) (readBack F (ctor m) k (bytesAt 2 o p) d f) := by
    intro k hk e f hf
    obtain ⟨db, h1, h2, h3⟩ := hcm k hk e
    obtain ⟨d', -, h5, h6⟩ := resolved_at p hr cls db h1 h2
    rw [hd2] at h5
    cases h5
    rw [h6.same f hf, h3]
  constructor
  · simp only [valueSchema]
    cases hf : kinds.find? (fun k => k.name == cls) with
    | none => rfl
    | some k =>
      have hk := List.mem_of_find?_eq_some hf
      have hn : k.name = cls := by simpa using List.find?_some hf
      subst hn
      simp only
      have c1 : cond (fun f => dmxText (bytesAt 2 o p) (d2 f)) = cond d2 := funext (cond_dmxText _ d2)
      have c2 : cond (fun f => dmxText (bytesAt 2 o p) (d f)) = cond d := funext (cond_dmxText _ d)
      rw [c1, c2]
      exact object_again F m o h hs p k hk d d2 hc hd (hrest k hk rfl) hlink
  · rintro rfl
    have hnl : ¬ Later "GdtfDmxChannel" "fCoarse+fFine+fUltra+fUber" := by
      rintro ⟨u, hu⟩
      have : ∀ p ∈ Node.Spec.deferred, p.1 = "GdtfDmxChannel" → p.2.2 ≠ "fCoarse+fFine+fUltra+fUber" := by decide +kernel
      exact this _ hu rfl rfl
    have e := hrest Node.kDmxChannel (by decide +kernel) rfl _ hnl
    have hm := member_back F (ctor m) (C85_suitable m) Node.kDmxChannel (by decide +kernel) (bytesAt 2 o p) (bytesAt_reso p 2 o (by unfold IsReso; omega)) d
      (h.typed p _ d hc hd) (h.kept p _ d hc hd) (fun e => absurd e (by decide)) (fun e => absurd e (by decide)) offsetItem
      offset_writes (by decide +kernel) rfl
    rw [show offsetItem.field = "fCoarse+fFine+fUltra+fUber" from rfl, ← e] at hm
    have hto : typeOf (d "fCoarse+fFine+fUltra+fUber") = .of .offset := by
      rw [h.typed p _ d hc hd]
      exact suits_offset (C85_suitable m _ offsetItem .offset offset_writes offset_cv)
    obtain ⟨x, hx⟩ := is_offset hto
    rw [hx] at hm ⊢
    generalize d2 "fCoarse+fFine+fUltra+fUber" = w at hm ⊢
    exact Eq.symm hm

/-- A value in the place of a reference. -/
theorem later_alike {m : Memory} {n : Nat} {cls f : String} {v : Val} (h : Later cls f) (ht : typeOf v = typeOf (ctor m cls f)) (hk : Kept n v) :
    AlikeLater (ctor m cls f) v := by
  obtain ⟨u, hu⟩ := h
  obtain ⟨h1, h2⟩ := table_later_kinds _ hu
  rw [ctor_made m _ _ h1] at ht ⊢
  simp only at h2
  rcases h2 with h2 | h2 <;> rw [h2] at ht ⊢ <;> cases v <;> first | exact ⟨_, rfl⟩ | exact hk.elim | (simp [typeOf] at ht; done)

theorem kid_at {cls : String} {d : Members} {ks : List (List (Obj Members))} {i j : Nat} {k : List (Obj Members)} {x : Obj Members}
    (h1 : ks[i]? = some k) (h2 : k[j]? = some x) (p : List (Nat × Nat)) : Obj.at (.mk cls d ks) ((i, j) :: p) = Obj.at x p := by
  simp only [Obj.at, h1, h2, Option.bind_some]

open Classical in
/-- The references of one description can be put into another one of the same shape. -/
theorem links_put (m : Memory) {o b : Obj Members} (h : Shape o b) :
    (∀ p cls d, classAt o p = some cls → dataAt o p = some d → ∀ f, Later cls f → AlikeLater (ctor m cls f) (d f)) → OneMaster o →
      ∃ o2, Resolved m b o2 ∧ LinksKept o o2 := by
  induction h with
  | mk cls d d' ks ks' hl hn hk ih =>
    intro ha hm
    have hkid : ∀ (i j : Nat) k k' x x', ks[i]? = some k → ks'[i]? = some k' → k[j]? = some x → k'[j]? = some x' →
        ∃ y, Resolved m x' y ∧ LinksKept x y := by
      intro i j k k' x x' h1 h2 h3 h4
      apply ih i j k k' x x' h1 h2 h3 h4
      · intro p c e hc he
        exact ha ((i, j) :: p) c e (by unfold classAt at *; rw [kid_at h1 h3]; exact hc) (by unfold dataAt at *; rw [kid_at h1 h3]; exact he)
      · intro p e hc he
        exact hm ((i, j) :: p) e (by unfold classAt at *; rw [kid_at h1 h3]; exact hc) (by unfold dataAt at *; rw [kid_at h1 h3]; exact he)
    let G : Obj Members → Obj Members → Obj Members := fun x x' => if hx : ∃ y, Resolved m x' y ∧ LinksKept x y then hx.choose else x'
    have hG : ∀ x x', (∃ y, Resolved m x' y ∧ LinksKept x y) → Resolved m x' (G x x') ∧ LinksKept x (G x x') := by
      intro x x' hx
      show Resolved m x' (dite _ _ _) ∧ LinksKept x (dite _ _ _)
      rw [dif_pos hx]
      exact hx.choose_spec
    have hget : ∀ (i : Nat) k2, (List.zipWith (List.zipWith G) ks ks')[i]? = some k2 → ∃ k k', ks[i]? = some k ∧ ks'[i]? = some k' ∧
        k2 = List.zipWith G k k' := by
      intro i k2 h
      rw [List.getElem?_zipWith] at h
      cases h1 : ks[i]? with
      | none => rw [h1] at h; cases h
      | some k =>
        cases h2 : ks'[i]? with
        | none => rw [h1, h2] at h; cases h
        | some k' =>
          rw [h1, h2] at h
          exact ⟨k, k', rfl, rfl, (Option.some.inj h).symm⟩
    have hget2 : ∀ (k k' : List (Obj Members)) (j : Nat) x2, (List.zipWith G k k')[j]? = some x2 → ∃ x x', k[j]? = some x ∧ k'[j]? = some x' ∧
        x2 = G x x' := by
      intro k k' j x2 h
      rw [List.getElem?_zipWith] at h
      cases h1 : k[j]? with
      | none => rw [h1] at h; cases h
      | some x =>
        cases h2 : k'[j]? with
        | none => rw [h1, h2] at h; cases h
        | some x' =>
          rw [h1, h2] at h
          exact ⟨x, x', rfl, rfl, (Option.some.inj h).symm⟩
    refine ⟨.mk cls (fun f => if Later cls f then d f else d' f) (List.zipWith (List.zipWith G) ks ks'), ?_, ?_⟩
    · refine .mk _ _ _ _ _ ⟨?_, ?_, ?_⟩ ?_ ?_ ?_
      · intro f hf
        exact if_neg hf
      · intro f hf
        rw [if_pos hf]
        exact ha [] cls d rfl rfl f hf
      · rintro rfl
        have hh : ∀ f ∈ ["fModeMaster_Channel", "fModeMaster_Function"], Later "GdtfDmxChannelFunction" f := by
          have : ∀ f ∈ ["fModeMaster_Channel", "fModeMaster_Function"], Node.Spec.deferred.any (fun p => p.1 == "GdtfDmxChannelFunction" && p.2.2 == f) = true := by
            decide +kernel
          intro f hf
          exact later_of_any (this f hf)
        rw [if_pos (hh _ (by simp)), if_pos (hh _ (by simp))]
        exact hm [] d rfl rfl
      · rw [List.length_zipWith]
        omega
      · intro i k k2 h1 h2
        obtain ⟨k0, k', h3, h4, rfl⟩ := hget i k2 h2
        rw [h1] at h4
        cases h4
        rw [List.length_zipWith, hn i k0 k h3 h1]
        omega
      · intro i j k k2 x x2 h1 h2 h3 h4
        obtain ⟨k0, k', h5, h6, rfl⟩ := hget i k2 h2
        rw [h1] at h6
        cases h6
        obtain ⟨x0, x', h7, h8, rfl⟩ := hget2 k0 k j x2 h4
        rw [h3] at h8
        cases h8
        exact (hG x0 x (hkid i j k0 k x0 x h5 h1 h7 h3)).1
    · intro p c e e2 hc he he2 f hf
      cases p with
      | nil =>
        simp only [classAt, dataAt, Obj.at, Option.map_some, Option.some.injEq] at hc he he2
        subst he he2
        have : cls = c := hc
        rw [this]
        exact if_pos hf
      | cons ij p =>
        obtain ⟨i, j⟩ := ij
        unfold classAt at hc
        unfold dataAt at he he2
        cases h2 : (List.zipWith (List.zipWith G) ks ks')[i]? with
        | none => simp [Obj.at, h2] at he2
        | some k2 =>
          obtain ⟨k, k', h3, h4, rfl⟩ := hget i k2 h2
          cases h5 : (List.zipWith G k k')[j]? with
          | none => simp [Obj.at, h2, h5] at he2
          | some x2 =>
            obtain ⟨x, x', h6, h7, rfl⟩ := hget2 k k' j x2 h5
            rw [kid_at h3 h6] at hc he
            rw [kid_at h2 h5] at he2
            exact (hG x x' (hkid i j k k' x x' h3 h4 h6 h7)).2 p c e e2 hc he he2 f hf

/-- **C95, references.** Every description can be resolved to its references after it was saved and read. -/
theorem C95_resolved (F : Fl) (m : Memory) (o : Obj Members) (h : Ordinary (ctor m) o) :
    ∃ o2, Resolved m (readValues F (ctor m) (madeObj m) o.cls (writeValues F (ctor m) (madeObj m) o)) o2 ∧ LinksKept o o2 := by
  apply links_put m (shape_again F (ctor m) (madeObj m) o h) _ h.master
  intro p cls d hc hd f hf
  exact later_alike hf (h.typed p cls d hc hd f) (h.kept p cls d hc hd f)

/-- **C95, files.** The bytes of the second file are those of the first: a fixture whose texts XML can keep is written, the file is read, and what was
read is written to the same bytes once its references are resolved. -/
theorem C95_file_partial (F : Fl) (m : Memory) (o : Obj Members) (h : Ordinary (ctor m) o) (hs : Steady o) (hl : AllLegible o)
    (hcls : o.cls = "GdtfFixture") (hn : nested o ≤ 49) :
    ∃ b r o', writeDescription F (ctor m) (madeObj m) o = some b ∧ readDescription F (ctor m) (madeObj m) (some b) = some r ∧ r.fixture = some o' ∧
      ∀ o2, Resolved m o' o2 → LinksKept o o2 → writeDescription F (ctor m) (madeObj m) o2 = some b := by
  obtain ⟨b, hb, hr⟩ := C81_text F (ctor m) (madeObj m) o h hl hcls
  have hd := values_depth F (ctor m) (madeObj m) o
  rw [if_pos (by omega)] at hr
  refine ⟨b, _, _, hb, hr, rfl, ?_⟩
  intro o2 h1 h2
  rw [← hb]
  unfold writeDescription
  rw [C95_same_partial F m o h hs o2 h1 h2]

/-- **C95, foreign files.** The same for a fixture that was read from the description of any program. -/
theorem C95_read_partial (F : Fl) (m : Memory) (hm : Numbers m) (e : Elem) (hw : sameWord e.name "FixtureType" = true) (hs : Sane e) (o : Obj Members)
    (ho : Resolved m (fixtureRead F m e) o) (hst : Steady o) (o2 : Obj Members) (hr : Resolved m (fixtureAgain F m o) o2) (hl : LinksKept o o2) :
    writeValues F (ctor m) (madeObj m) o2 = writeValues F (ctor m) (madeObj m) o := by
  obtain ⟨-, hord, hcls⟩ := fixture_ordinary F m hm e hw hs o ho
  apply C95_same_partial F m o hord hst o2 _ hl
  rw [hcls]
  exact hr

/-! ### The hypotheses are met -/

/-- A wheel slot as constructed, with a duration. -/
def slotData (x : Dbl) : Members := fun f => if f = "fDuration" then .real x else ctor zeros "GdtfWheelSlot" f

/-- The object. -/
def slotObj (x : Dbl) : Obj Members := .mk "GdtfWheelSlot" (slotData x) [[], []]

theorem slot_at (x : Dbl) (p : List (Nat × Nat)) (y : Obj Members) (h : Obj.at (slotObj x) p = some y) : p = [] ∧ y = slotObj x := by
  cases p with
  | nil => exact ⟨rfl, (by simpa [Obj.at] using h.symm)⟩
  | cons ij p =>
    obtain ⟨i, j⟩ := ij
    rcases i with _ | _ | i <;> simp [slotObj, Obj.at] at h

theorem slot_class {x : Dbl} {p : List (Nat × Nat)} {cls : String} (h : classAt (slotObj x) p = some cls) : p = [] ∧ cls = "GdtfWheelSlot" := by
  unfold classAt at h
  cases ha : Obj.at (slotObj x) p with
  | none => rw [ha] at h; cases h
  | some y =>
    rw [ha] at h
    obtain ⟨h1, rfl⟩ := slot_at x p y ha
    exact ⟨h1, (by simpa [slotObj, Obj.cls, Obj.at] using h.symm)⟩

theorem slot_data {x : Dbl} {p : List (Nat × Nat)} {d : Members} (h : dataAt (slotObj x) p = some d) : d = slotData x := by
  unfold dataAt at h
  cases ha : Obj.at (slotObj x) p with
  | none => rw [ha] at h; cases h
  | some y =>
    rw [ha] at h
    obtain ⟨h1, rfl⟩ := slot_at x p y ha
    simpa [slotObj] using h.symm

theorem slot_made (f : String) (h : f ≠ "fDuration") (x : Dbl) : slotData x f = made "GdtfWheelSlot" f := by
  unfold slotData
  rw [if_neg h]
  apply ctor_made
  have : ∀ q ∈ unset, q.1.1 ≠ "GdtfWheelSlot" := by decide +kernel
  rw [List.find?_eq_none]
  intro q hq e
  rw [beq_iff_eq] at e
  exact this q hq (by rw [e])

theorem slot_ordinary (x : Dbl) (hx : Good x) : Ordinary (ctor zeros) (slotObj x) where
  tree := tree_of _ _ _ [[], []] rfl (by decide +kernel) (by simp)
  noPreset := by
    intro q e
    exact absurd (slot_class e).2 (by decide)
  typed := by
    intro p cls d hc hd f
    obtain ⟨-, rfl⟩ := slot_class hc
    rw [slot_data hd]
    unfold slotData
    split
    · rename_i e
      rw [e, ctor_made zeros "GdtfWheelSlot" "fDuration" (by decide +kernel), show made "GdtfWheelSlot" "fDuration" = .real ⟨false, 0⟩ from by decide +kernel]
      rfl
    · rfl
  kept := by
    intro p cls d hc hd f
    obtain ⟨-, rfl⟩ := slot_class hc
    rw [slot_data hd]
    unfold slotData
    split
    · exact hx
    · apply ctor_kept zeros zeros_numbers
      rintro ⟨q, hq, -⟩
      have : ∀ q ∈ unset, q.1.1 ≠ "GdtfWheelSlot" := by decide +kernel
      have h2 := List.find?_some hq
      rw [beq_iff_eq] at h2
      exact this q (List.mem_of_find?_eq_some hq) (by rw [h2])
  master := by
    intro p d hc hd
    exact absurd (slot_class hc).2 (by decide)

instance (v : Val) : Decidable (ModerateVal v) := by
  cases v <;> (unfold ModerateVal; infer_instance)

theorem slot_moderate : ∀ i ∈ Node.kWheelSlot.writes, ModerateVal (made "GdtfWheelSlot" i.field) := by decide +kernel

theorem slot_steady : Steady (slotObj ⟨false, 5 / 2⟩) where
  numbers := by
    intro p cls d hc hd i hi
    obtain ⟨-, rfl⟩ := slot_class hc
    rw [slot_data hd]
    by_cases e : i.field = "fDuration"
    · rw [e]
      show Moderate _
      unfold Moderate
      norm_num
    · rw [slot_made _ e]
      obtain ⟨k, hk, hn, hw⟩ := hi
      have hkw : k = Node.kWheelSlot := by
        have e1 := table_find k hk
        rw [hn] at e1
        have e2 := table_find Node.kWheelSlot (by decide +kernel)
        rw [show Node.kWheelSlot.name = "GdtfWheelSlot" from rfl, e1] at e2
        exact Option.some.inj e2
      subst hkw
      exact slot_moderate i hw.1
  durations := by
    intro p d x hc hd hx h0
    rw [slot_data hd] at hx
    cases hx
    revert h0
    decide +kernel
  names := by
    intro p d hc hd
    exact absurd (slot_class hc).2 (by decide)

/-- A wheel slot with a duration of 2.5 seconds is saved as the same text again, once its reference is resolved. -/
example (F : Fl) : ∃ o2, Resolved zeros (readValues F (ctor zeros) (madeObj zeros) "GdtfWheelSlot"
      (writeValues F (ctor zeros) (madeObj zeros) (slotObj ⟨false, 5 / 2⟩))) o2 ∧
    writeValues F (ctor zeros) (madeObj zeros) o2 = writeValues F (ctor zeros) (madeObj zeros) (slotObj ⟨false, 5 / 2⟩) := by
  have ho := slot_ordinary ⟨false, 5 / 2⟩ (by unfold Good; norm_num)
  obtain ⟨o2, h1, h2⟩ := C95_resolved F zeros _ ho
  exact ⟨o2, h1, C95_same_partial F zeros _ ho slot_steady o2 h1 h2⟩

/-! ### What does not hold -/

/-- **C95, violated.** A duration of a wheel slot that is shown as zero but is not zero is written, and left out when the fixture is saved again. -/
theorem C95_duration_violated (F : Fl) (m : Memory) (o : Obj Members) (h : Ordinary (ctor m) o) (p : List (Nat × Nat)) (d : Members)
    (hc : classAt o p = some "GdtfWheelSlot") (hd : dataAt o p = some d) (x : Dbl) (hx : d "fDuration" = .real x) (h0 : x.mag ≠ 0) (h1 : millionths x = 0) :
    cond d "fDuration != 0.0" = true ∧
      ∃ d', dataAt (readValues F (ctor m) (madeObj m) o.cls (writeValues F (ctor m) (madeObj m) o)) p = some d' ∧ cond d' "fDuration != 0.0" = false := by
  have hin : durationItem ∈ slotItems := by decide +kernel
  have hg : durationItem.guard.holds (cond d) = true := by
    rw [slot_cond d durationItem hin, show durationItem.field = "fDuration" from rfl, hx]
    simpa [nonzero] using h0
  refine ⟨hg, _, place_back F (ctor m) (madeObj m) (C85_suitable m) o h p Node.kWheelSlot (by decide +kernel) d hc hd, ?_⟩
  obtain ⟨cv, hcv, -, -, hv⟩ := member_value F (ctor m) (C85_suitable m) Node.kWheelSlot (by decide +kernel) (bytesAt 2 o p) d (h.typed p _ d hc hd)
    (fun e => absurd e (by decide)) (fun e => absurd e (by decide)) durationItem (slot_writes _ hin) (by decide +kernel) hg
  have : cv = .real := by
    have h : cvOf durationItem.codec = some .real := by decide +kernel
    rw [h] at hcv
    exact (Option.some.inj hcv).symm
  subst this
  have hctor : ctor m "GdtfWheelSlot" "fDuration" = .real ⟨false, 0⟩ := by
    rw [ctor_made m _ _ (by decide +kernel)]
    decide +kernel
  rw [show durationItem.field = "fDuration" from rfl, show Node.kWheelSlot.name = "GdtfWheelSlot" from rfl, hctor, hx] at hv
  have hz : (atof F (printReal x)).mag = 0 := by
    have := Mvr.shown_exact F h1 (.inl rfl)
    unfold Mvr.signed at this
    split at this <;> norm_num at this <;> exact this
  show nonzero (dmxValue F (bytesAt 2 o p) (readBack F (ctor m) Node.kWheelSlot (bytesAt 2 o p) d "fDuration")) = false
  rw [hv]
  simp only [again, dmxText, enc, dec, Option.getD_some, chars_back _ (small_real x), if_neg (printReal_ne_nil x), dmxValue, nonzero, hz]
  rfl

/-- A wheel slot with a duration of a ten millionth of a second is such a description. -/
example (F : Fl) : ∃ d', dataAt (readValues F (ctor zeros) (madeObj zeros) "GdtfWheelSlot" (writeValues F (ctor zeros) (madeObj zeros)
    (slotObj ⟨false, 1 / 10000000⟩))) [] = some d' ∧ cond d' "fDuration != 0.0" = false :=
  (C95_duration_violated F zeros (slotObj ⟨false, 1 / 10000000⟩) (slot_ordinary _ (by unfold Good; norm_num)) [] _ rfl rfl ⟨false, 1 / 10000000⟩ rfl
    (by norm_num) (by decide +kernel)).2

end Verif.Gdtf
