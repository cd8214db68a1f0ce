import Verif.Mvr.Kinds
import Mathlib.Tactic.NormNum
import Mathlib.Tactic.Linarith

/-!
# MVR scenes: a scene that meets the hypotheses, and what does not come back
-/

namespace Verif.Mvr

open Verif.Str Verif.Text Verif.Real Verif.Dmx Spec
open Verif.Xml.Spec (Clean Blank Space Name Plain Plains levels)

instance (c : Ty) (v : Val) : Decidable (Holds c v) := by
  cases c <;> cases v <;> unfold Holds <;> infer_instance

instance decHoldsAll : (fs : List Value) → (vs : List Val) → Decidable (HoldsAll fs vs)
  | [], [] => isTrue trivial
  | [], _ :: _ => isFalse (by simp [HoldsAll])
  | _ :: _, [] => isFalse (by simp [HoldsAll])
  | f :: fs, v :: vs => by
    rw [HoldsAll]
    have := decHoldsAll fs vs
    infer_instance

instance (s : Member) (k : List Obj) : Decidable (Contents s k) := by
  unfold Contents
  have : Decidable (∀ n, s.most = some n → k.length ≤ n) :=
    match s.most with
    | none => isTrue (by simp)
    | some n => decidable_of_iff (k.length ≤ n) (by simp)
  infer_instance

mutual
/-- A check for `Build`. -/
def buildB : Obj → Bool
  | .mk c vs ks => match kinds.find? (fun d => d.cls == c) with
    | none => false
    | some d => decide (HoldsAll d.values vs) && (c != "fGobo" || vs.head? != some (.text []) || vs == [.text [], .real zero]) &&
        ks.length == d.members.length && (d.members.zip ks).all (fun p => decide (Contents p.1 p.2)) && kidsB ks

/-- A check for `Build`. -/
def kidsB : List (List Obj) → Bool
  | [] => true
  | k :: ks => listB k && kidsB ks

/-- A check for `Build`. -/
def listB : List Obj → Bool
  | [] => true
  | o :: os => buildB o && listB os
end

mutual
theorem buildB_sound : ∀ o : Obj, buildB o = true → Build o
  | .mk c vs ks, h => by
    rw [buildB] at h
    split at h
    · cases h
    · rename_i d hd
      simp only [Bool.and_eq_true, decide_eq_true_eq, Bool.or_eq_true, beq_iff_eq, bne_iff_ne, List.all_eq_true] at h
      obtain ⟨⟨⟨⟨h1, h2⟩, h3⟩, h4⟩, h5⟩ := h
      have hn : d.cls = c := by simpa using List.find?_some hd
      subst hn
      refine .mk d vs ks (List.mem_of_find?_eq_some hd) h1 ?_ h3 h4 (kidsB_sound ks h5)
      intro ha hb
      rcases h2 with (h2 | h2) | h2
      · exact absurd ha h2
      · exact absurd hb h2
      · exact h2
theorem kidsB_sound : ∀ ks : List (List Obj), kidsB ks = true → ∀ k ∈ ks, ∀ o ∈ k, Build o
  | [], _, _, h => by cases h
  | k :: ks, h, k', hk => by
    rw [kidsB, Bool.and_eq_true] at h
    rcases List.mem_cons.1 hk with hk | hk
    · rw [hk]; exact listB_sound k h.1
    · exact kidsB_sound ks h.2 k' hk
theorem listB_sound : ∀ k : List Obj, listB k = true → ∀ o ∈ k, Build o
  | [], _, _, h => by cases h
  | o :: os, h, p, hp => by
    rw [listB, Bool.and_eq_true] at h
    rcases List.mem_cons.1 hp with hp | hp
    · rw [hp]; exact buildB_sound o h.1
    · exact listB_sound os h.2 p hp
end

/-- A member with one value. -/
def one1 (n : String) (v : Val) : List Obj := [.mk n [v] []]

/-- A matrix with a translation. -/
def moved : Mat := ⟨⟨one, zero, zero⟩, ⟨zero, one, zero⟩, ⟨zero, zero, one⟩, ⟨⟨false, 5 / 2⟩, ⟨true, 1 / 3⟩, zero⟩⟩

/-- The members of an object with a matrix that has nothing but the matrix. -/
def plainMembers (m : Mat) : List (List Obj) := [one1 "fMatrix" (.matrix m), [], [], [], [], [], []]

/-- A fixture. -/
def fixture (gobo : Text) (rotation : Dbl) (custom : Int) (number : Int) (command : Text) (percent : Bool) : Obj :=
  .mk "SceneDataFixtureObj" [.uuid (List.replicate 16 7), .text "Spot 1".toList]
    [one1 "fMatrix" (.matrix moved), [], [.mk "SceneDataCustomCommand" [.text [], .command command percent ⟨false, 50⟩] []],
     [.mk "SceneDataAlignment" [.text [], .text "Beam".toList, .vec ⟨zero, zero, one⟩, .vec ⟨zero, ⟨true, 1⟩, zero⟩] []],
     [.mk "SceneDataOverwrite" [.text [], .text "Gobo 1".toList, .text "Stars".toList] []], one1 "fClass" (.text "abc".toList),
     [.mk "SceneDataConnectionObj" [.text [], .text "Input".toList, .text "Output".toList, .uuid (List.replicate 16 9)] []],
     [], one1 "fGdtfFile" (.text "Vendor@Spot.gdtf".toList), one1 "fGdtfDmxMode" (.text "Mode 1".toList),
     [], one1 "fPosition" (.text "FOH".toList),
     [.mk "SceneDataDmxAdress" [.int 1, .int 513] []], one1 "fFixtureId" (.text "101".toList),
     one1 "fFixtureIdNumeric" (.int number), one1 "fUnitNumber" (.int (-3)), one1 "fFixtureTypeId" (.int 2), one1 "fCustomId" (.int custom),
     one1 "fColor" (.color ⟨⟨false, 3127 / 10000⟩, ⟨false, 329 / 1000⟩, ⟨false, 100⟩⟩),
     [.mk "fGobo" [.text gobo, .real rotation] []], one1 "fFunction" (.text "Wash".toList), one1 "fCastShadow" (.flag true),
     [.mk "SceneDataMappingObj" [.text [], .uuid (List.replicate 16 8)] [one1 "fUx" (.int 10), one1 "fUy" (.int 20), one1 "fOx" (.int 0),
        one1 "fOy" (.int 1080), one1 "fRz" (.real ⟨false, 45⟩)]],
     one1 "fDMXInvertPan" (.flag true), one1 "fDMXInvertTilt" (.flag false),
     [.mk "SceneDataProtocols" [.text "Network".toList, .text "sACN".toList, .text "".toList, .text "1".toList, .transmission .cMulticast] []]]

/-- A scene: a layer with an empty group and a group that contains a fixture. -/
def scene (f : Obj) : Obj :=
  .mk "SceneDataExchange" []
    [[.mk "SceneDataProviderObj" [.text "Vendor".toList, .text "1".toList] [[.mk "Provider.Entry" [.text "key".toList, .text "value".toList] []]]],
     [.mk "Exchange.Scene" []
       [[.mk "SceneDataLayerObj" [.uuid (List.replicate 16 1), .text "Layer 1".toList] (plainMembers .identity ++
          [[.mk "SceneDataGroupObj" [.uuid (List.replicate 16 2), .text "Empty".toList] (plainMembers .identity ++ [[]]),
            .mk "SceneDataGroupObj" [.uuid (List.replicate 16 3), .text "Rig".toList] (plainMembers moved ++ [[f]])]])],
        [.mk "Exchange.AUXData" []
          [[.mk "SceneDataMappingDefinitionObj" [.uuid (List.replicate 16 8), .text "Screen".toList]
             [one1 "fSizeX" (.int 1920), one1 "fSizeY" (.int 1080),
              [.mk "SceneDataSourceObj" [.text [], .text "Geo".toList, .source .cFile, .text "movie.mov".toList] []],
              one1 "fScaleHandling" (.scale .cScaleIgnoreRatio)]],
           [.mk "SceneDataPositionObj" [.uuid (List.replicate 16 5), .text "FOH".toList] []], []]]]]]

/-- The fixture of the examples. -/
def example1 : Obj := scene (fixture "gobo.png".toList ⟨false, 90⟩ 5 101 "Dimmer".toList true)

theorem example1_build : Build example1 := buildB_sound _ (by decide +kernel)

/-- Names and texts with values that come back: `C65_partial` is not empty. -/
example (F : Fl) : Same (prune example1) (read classes F "SceneDataExchange" (write classes example1)) := C65_partial F example1 example1_build

instance (t : Text) : Decidable (Clean t) := by unfold Xml.Spec.Clean; infer_instance

instance (p : Bool) (v : Val) : Decidable (Tidy p v) := by
  cases v <;> unfold Tidy <;> infer_instance

instance decTidyVals : (fs : List Value) → (vs : List Val) → Decidable (TidyVals fs vs)
  | [], _ => isTrue (by simp [TidyVals])
  | _ :: _, [] => isTrue (by simp [TidyVals])
  | f :: fs, v :: vs => by
    rw [TidyVals]
    have := decTidyVals fs vs
    infer_instance

mutual
/-- A check for `TidyTree`. -/
instance decTidyTree : (o : Obj) → Decidable (TidyTree o)
  | .mk c vs ks => by
    rw [TidyTree]
    have := decTidyKids ks
    infer_instance
/-- A check for `TidyTree`. -/
instance decTidyKids : (ks : List (List Obj)) → Decidable (TidyKids ks)
  | [] => isTrue (by simp [TidyKids])
  | k :: ks => by
    rw [TidyKids]
    have := decTidyKids ks
    have := decTidyList k
    infer_instance
/-- A check for `TidyTree`. -/
instance decTidyList : (k : List Obj) → Decidable (TidyList k)
  | [] => isTrue (by simp [TidyList])
  | o :: os => by
    rw [TidyList]
    have := decTidyTree o
    have := decTidyList os
    infer_instance
end

theorem example1_clean : TidyTree example1 := by decide +kernel

mutual
theorem levels_le : ∀ x : Xml, levels x ≤ depth x
  | .elem n a t k => by
    have := levelsAll_le k
    rw [levels, depth]
    split <;> omega
theorem levelsAll_le : ∀ k : List Xml, Xml.Spec.levelsAll k ≤ depths k
  | [] => by simp [Xml.Spec.levelsAll]
  | x :: k => by
    have h1 := levels_le x
    have h2 := levelsAll_le k
    rw [Xml.Spec.levelsAll, depths]; omega
end

theorem example1_levels : levels (write classes example1) ≤ 98 :=
  Nat.le_trans (levels_le _) (by decide +kernel)

/-- `C65_file_partial` is not empty. -/
example (F : Fl) : ∃ x, Xml.readBuffer (Xml.writeXmlText (write classes example1)) = some x ∧
    Same (prune example1) (read classes F "SceneDataExchange" x) := C65_file_partial F example1 example1_build example1_clean example1_levels

/-! ### What does not come back -/

theorem sameAll_at : ∀ {ks ls : List (List Obj)} (i : Nat) (o : Obj), SameAll ks ls → ks[i]? = some [o] →
    ∃ p, ls[i]? = some [p] ∧ Same o p
  | [], ls, i, o, _, h => by simp at h
  | k :: ks, [], i, o, h, _ => by simp [SameAll] at h
  | k :: ks, l :: ls, 0, o, h, hk => by
    simp only [List.getElem?_cons_zero, Option.some.injEq] at hk ⊢
    subst hk
    rw [SameAll] at h
    obtain ⟨h, -⟩ := h
    cases l with
    | nil => simp [SameList] at h
    | cons p l =>
      cases l with
      | nil => rw [SameList] at h; exact ⟨p, rfl, h.1⟩
      | cons q l => simp [SameList] at h
  | k :: ks, l :: ls, i + 1, o, h, hk => by
    rw [SameAll] at h
    simpa using sameAll_at i o h.2 (by simpa using hk)

theorem writeSlots_same (cs : List Class) {k l : List Obj} (h : writeList cs k = writeList cs l) (he : k.isEmpty = l.isEmpty) :
    ∀ (pre post : List (List Obj)) (ss : List Slot), writeSlots cs ss (pre ++ k :: post) = writeSlots cs ss (pre ++ l :: post)
  | [], post, [] => by simp [writeSlots]
  | [], post, s :: ss => by simp [writeSlots, h, he]
  | a :: pre, post, [] => by simp [writeSlots]
  | a :: pre, post, s :: ss => by
    rw [List.cons_append, List.cons_append, writeSlots, writeSlots, writeSlots_same cs h he pre post ss]

/-- C65 is violated: the rotation of a gobo is lost if the gobo is not set, since two fixtures that differ in it are written as the
same bytes (SceneDataExchange.cpp:2234-2240).  No way of reading brings back both. -/
theorem C65_rotation_violated (back : Xml → Obj) :
    ∃ r : Dbl, 0 ≤ r.mag ∧ ¬ Same (fixture [] r 5 101 "Dimmer".toList true) (back (write classes (fixture [] r 5 101 "Dimmer".toList true))) := by
  have hw : ∀ r, write classes (fixture [] r 5 101 "Dimmer".toList true) = write classes (fixture [] zero 5 101 "Dimmer".toList true) := by
    intro r
    have h := writeSlots_same classes (k := [.mk "fGobo" [.text [], .real r] []]) (l := [.mk "fGobo" [.text [], .real zero] []]) (by
      have hs : ∀ x, skipped classes (.mk "fGobo" [.text [], .real x] []) = true := fun _ => rfl
      simp only [writeList, hs, if_true]) rfl
    unfold fixture
    rw [write, write]
    exact congrArg (Scene.Xml.elem _ _ _) (h [_, _, _, _, _, _, _, _, _, _, _, _, _, _, _, _, _, _, _] _ _)
  have key : ∀ r x, Same (fixture [] r 5 101 "Dimmer".toList true) x → ∃ y, Near r y ∧
      ∃ c vs ks t, x = .mk c vs ks ∧ ks[19]? = some [.mk "fGobo" [t, .real y] []] := by
    intro r x h
    cases x with
    | mk c vs ks =>
      unfold fixture at h
      rw [Same] at h
      obtain ⟨p, hp, hs⟩ := sameAll_at 19 (.mk "fGobo" [.text [], .real r] []) h.2.2 (by rfl)
      cases p with
      | mk d ws ls =>
        rw [Same] at hs
        obtain ⟨hd, hv, hl⟩ := hs
        subst hd
        cases ls with
        | cons a b => simp [SameAll] at hl
        | nil =>
          match ws, hv with
          | [t, .real y], hv =>
            simp only [CloseAll] at hv
            exact ⟨y, hv.2.1, c, vs, ks, t, rfl, hp⟩
          | [t, .text _], hv => simp [CloseAll, Close] at hv
          | [t, .uuid _], hv => simp [CloseAll, Close] at hv
          | [t, .int _], hv => simp [CloseAll, Close] at hv
          | [t, .flag _], hv => simp [CloseAll, Close] at hv
          | [t, .vec _], hv => simp [CloseAll, Close] at hv
          | [t, .color _], hv => simp [CloseAll, Close] at hv
          | [t, .matrix _], hv => simp [CloseAll, Close] at hv
          | [t, .source _], hv => simp [CloseAll, Close] at hv
          | [t, .scale _], hv => simp [CloseAll, Close] at hv
          | [t, .transmission _], hv => simp [CloseAll, Close] at hv
          | [t, .command _ _ _], hv => simp [CloseAll, Close] at hv
          | [t, .undef], hv => simp [CloseAll, Close] at hv
          | [], hv => simp [CloseAll] at hv
          | [_], hv => simp [CloseAll] at hv
          | _ :: _ :: _ :: _, hv => simp [CloseAll] at hv
  by_contra hall
  have h1 : Same (fixture [] zero 5 101 "Dimmer".toList true) (back (write classes (fixture [] zero 5 101 "Dimmer".toList true))) := by
    by_contra hn
    exact hall ⟨zero, by decide +kernel, hn⟩
  have h2 : Same (fixture [] ⟨false, 90⟩ 5 101 "Dimmer".toList true) (back (write classes (fixture [] ⟨false, 90⟩ 5 101 "Dimmer".toList true))) := by
    by_contra hn
    exact hall ⟨⟨false, 90⟩, by decide +kernel, hn⟩
  rw [hw] at h2
  obtain ⟨y, hy, c, vs, ks, t, hx, hk⟩ := key _ _ h1
  obtain ⟨z, hz, c', vs', ks', t', hx', hk'⟩ := key _ _ h2
  rw [hx] at hx'
  injection hx' with e1 e2 e3
  subst e3
  rw [hk] at hk'
  have hyz : y = z := by
    simp only [Option.some.injEq, List.cons.injEq, Obj.mk.injEq, Val.real.injEq, and_true, true_and] at hk'
    exact hk'.2
  subst hyz
  unfold Near signed at hy hz
  simp only [zero] at hy hz
  norm_num at hy hz
  rw [abs_le] at hy hz
  split at hy <;> (simp_all; linarith [hy.1, hy.2, hz.1, hz.2])

/-- C65 is violated: the custom ID of a fixture is written as a 32-bit number, so that two IDs are written as the same bytes
(SceneDataExchange.cpp:2219). -/
theorem C65_customId_violated (back : Xml → Obj) :
    ∃ i : Int, 0 ≤ i ∧ i < 2 ^ 64 ∧ ¬ Same (.mk "fCustomId" [.int i] []) (back (write classes (.mk "fCustomId" [.int i] []))) := by
  have hw : write classes (.mk "fCustomId" [.int 4294967301] []) = write classes (.mk "fCustomId" [.int 5] []) := by rfl
  have key : ∀ i x, Same (.mk "fCustomId" [.int i] []) x → x = .mk "fCustomId" [.int i] [] := by
    intro i x h
    cases x with
    | mk c vs ks =>
      rw [Same] at h
      obtain ⟨h1, h2, h3⟩ := h
      subst h1
      cases ks with
      | cons a b => simp [SameAll] at h3
      | nil =>
        cases vs with
        | nil => simp [CloseAll] at h2
        | cons v vs =>
          cases vs with
          | cons a b => simp [CloseAll] at h2
          | nil =>
            simp only [CloseAll, and_true] at h2
            cases v <;> simp_all [Close]
  by_contra hall
  have h : ∀ i : Int, 0 ≤ i → i < 2 ^ 64 → back (write classes (.mk "fCustomId" [.int i] [])) = .mk "fCustomId" [.int i] [] := by
    intro i h1 h2
    apply key
    by_contra hn
    exact hall ⟨i, h1, h2, hn⟩
  have h1 := h 5 (by decide) (by decide)
  have h2 := h 4294967301 (by decide) (by decide)
  rw [hw, h1] at h2
  simp at h2

theorem atoi_large (n : Nat) (hn : 2147483647 < n) : atoi (natText n) = none := by
  obtain ⟨c, u, hc, hd⟩ := natText_head n
  have e : (natText n).dropWhile isSpace = natText n := by
    rw [hc, List.dropWhile_cons, isDigit_not_space c hd]; rfl
  have m : signVal (natText n) = (n : Int) := by
    unfold signVal
    split
    · rename_i h; rw [hc] at h; injection h with h _
      exact absurd h (isDigit_ne c '-' hd (by decide))
    · rename_i h; rw [hc] at h; injection h with h _
      exact absurd h (isDigit_ne c '+' hd (by decide))
    · rw [digitsVal_natText]
  unfold atoi
  simp only [e, m]
  rw [if_neg (by omega)]

/-- C65 is violated: numeric fixture IDs from 2^31 on are written in full but read by `atoi`, whose behaviour is not defined for them
(XmlFileHelper.cpp:420-459). -/
theorem C65_number_violated (F : Fl) (i : Int) (h1 : 2 ^ 31 ≤ i) (h2 : i < 2 ^ 63) :
    read classes F "fFixtureIdNumeric" (write classes (.mk "fFixtureIdNumeric" [.int i] [])) = .mk "fFixtureIdNumeric" [.undef] [] := by
  have hr : row classes "fFixtureIdNumeric" = leaf "fFixtureIdNumeric" "FixtureIDNumeric" .size (.int 0) .zero := by decide +kernel
  obtain ⟨n, rfl⟩ := Int.eq_ofNat_of_zero_le (show 0 ≤ i by omega)
  have ht : toSint 64 (n : Int) = n := toSint_small 64 (by decide) (n : Int) (by omega) (by norm_num; omega)
  rw [read_eq, write, hr]
  unfold leaf decAll textOf
  simp only [List.map_cons, List.map_nil, enc, ht, Place.get]
  have hu : dec F .size (.int 0) (writeInteger (n : Int)) = .undef := by
    unfold writeInteger
    rw [intText_nat, dec]
    unfold readUnsigned
    rw [if_neg (natText_ne_nil n), atoi_large n (by omega)]
    rfl
  exact congrArg (fun v => Obj.mk "fFixtureIdNumeric" [v] []) hu

/-- The case of a number that is a `size_t`. -/
example (F : Fl) : read classes F "fFixtureIdNumeric" (write classes (.mk "fFixtureIdNumeric" [.int 3000000000] [])) =
    .mk "fFixtureIdNumeric" [.undef] [] := C65_number_violated F 3000000000 (by decide) (by decide)

/-- C65 is violated: the channel function of a custom command is cut at the first comma (SceneDataExchange.cpp:1205-1215). -/
theorem C65_command_violated (F : Fl) (fn rest : Text) (x : Dbl) (h1 : ',' ∉ fn) (h2 : ¬ "/percent".toList <:+: fn ++ ',' :: rest) :
    ∃ y, read classes F "SceneDataCustomCommand" (write classes (.mk "SceneDataCustomCommand" [.text [], .command (fn ++ ',' :: rest) false x] [])) =
      .mk "SceneDataCustomCommand" [.text [], .command fn false y] [] := by
  have hr : row classes "SceneDataCustomCommand" = ⟨"SceneDataCustomCommand", "CustomCommand",
    [nameField, ⟨"fChannelFunction, fIsPercentage, fValue", .own, .command, .own, .command, .command [] false zero⟩], [], .never⟩ := by decide +kernel
  refine ⟨atof F (printReal x), ?_⟩
  rw [read_eq, write, hr]
  have hc : dec F .command (.command [] false zero) (writeCommand (fn ++ ',' :: rest) false x) = .command fn false (atof F (printReal x)) := by
    rw [dec]
    unfold writeCommand
    have e : fn ++ ',' :: rest ++ (if false = true then "/percent,f ".toList else ",f ".toList) ++ printReal x =
        (fn ++ ',' :: rest) ++ ',' :: ('f' :: ' ' :: printReal x) := by simp
    have e2 : (fn ++ ',' :: rest) ++ ',' :: ('f' :: ' ' :: printReal x) = (fn ++ ',' :: rest ++ [',', 'f']) ++ ' ' :: printReal x := by simp
    have e3 : (fn ++ ',' :: rest) ++ ',' :: ('f' :: ' ' :: printReal x) = fn ++ ',' :: (rest ++ ',' :: ('f' :: ' ' :: printReal x)) := by simp
    rw [e]
    have hf := find_plain (fn ++ ',' :: rest) ('f' :: ' ' :: printReal x) h2 (by
      intro hm
      rcases List.mem_cons.1 hm with hm | hm
      · cases hm
      · rcases List.mem_cons.1 hm with hm | hm
        · cases hm
        · exact printReal_no x '/' (by decide) (by decide) (by decide) hm)
    have hc : find ((fn ++ ',' :: rest) ++ ',' :: ('f' :: ' ' :: printReal x)) ",".toList = some fn.length := by
      rw [e3, show ",".toList = [','] from rfl, find_single, findCh_split ',' fn _ h1]
    have hv := value_part (fn ++ ',' :: rest ++ [',', 'f']) x
    rw [← e2] at hv
    unfold readCommand
    simp only [hf, hc, leftFound, leftC, hv, Option.isSome_none]
    rw [e3, List.take_left]
  exact congrArg (fun v => Obj.mk "SceneDataCustomCommand" [.text [], v] []) hc

/-- "Dimmer,1" is read as "Dimmer". -/
example (F : Fl) : ∃ y, read classes F "SceneDataCustomCommand" (write classes (.mk "SceneDataCustomCommand"
    [.text [], .command ("Dimmer".toList ++ ',' :: "1".toList) false one] [])) =
      .mk "SceneDataCustomCommand" [.text [], .command "Dimmer".toList false y] [] :=
  C65_command_violated F _ _ one (by decide) (by decide)

end Verif.Mvr
