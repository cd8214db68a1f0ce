import Verif.Mvr.SaveLemmas

/-!
# A scene that was read can be saved and read again (C90)
-/

namespace Verif.Mvr

open Verif.Str Verif.Text Verif.Real Verif.Dmx Spec

/-- C90 (up to the numbers and gaps named in `SaneNode`): whatever description the scene was read from, it can be saved, and what is read from the
saved description is the same scene, without the empty groups. -/
theorem C90_saved_partial (F : Fl) (e : Xml) (hn : e.name = "GeneralSceneDescription".toList) (h : Sane e) :
    ∃ x, save classes (read classes F "SceneDataExchange" e) = some x ∧
      Same (prune (read classes F "SceneDataExchange" e)) (read classes F "SceneDataExchange" x) := by
  have hk : ∃ k ∈ kinds, k.cls = "SceneDataExchange" ∧ (row classes k.cls).node = "GeneralSceneDescription" := by decide +kernel
  obtain ⟨k, hk, hc, hr⟩ := hk
  have hb := read_build F _ e (Nat.le_refl _) h k hk (by rw [hr]; unfold Called; rw [hn])
  rw [hc] at hb
  refine ⟨_, by unfold save; rw [build_saved hb]; rfl, ?_⟩
  have := C65_partial F _ hb
  have hcls : (read classes F "SceneDataExchange" e).cls = "SceneDataExchange" := by rw [read_eq]; rfl
  rw [hcls] at this
  exact this

/-- C90 for a part of a scene: the same for a node of any kind of object. -/
theorem C90_object_partial (F : Fl) (k : Kind) (hk : k ∈ kinds) (e : Xml) (hn : Called e (row classes k.cls).node) (h : Sane e) :
    Build (read classes F k.cls e) ∧ ∃ x, save classes (read classes F k.cls e) = some x ∧
      Same (prune (read classes F k.cls e)) (read classes F k.cls x) := by
  have hb := read_build F _ e (Nat.le_refl _) h k hk hn
  refine ⟨hb, _, by unfold save; rw [build_saved hb]; rfl, ?_⟩
  have := C65_partial F _ hb
  have hcls : (read classes F k.cls e).cls = k.cls := by rw [read_eq]; rfl
  rw [hcls] at this
  exact this

/-! ### What does not hold -/

theorem found_first (s : Slot) (rd : String → Xml → Obj) (n cls : String) (hs : s.accepts = [(n, cls)]) (hu : s.needsUuid = false)
    (hh : s.how = .embedded) : ∀ (es : List Xml) (x : Xml), es.find? (fun k => k.name == n.toList) = some x →
    ∃ l, s.found rd es = rd cls x :: l
  | [], _, h => by simp at h
  | y :: es, x, h => by
    unfold Slot.found
    have hc : s.created y = if y.name == n.toList then some cls else none := by
      unfold Slot.created Slot.same
      rw [hu, hs, hh]
      simp only [Bool.false_and, Bool.false_eq_true, if_false]
      rw [List.find?_cons]
      simp only [if_neg (show ¬ (How.embedded = How.many) by decide)]
      cases y.name == n.toList <;> simp
    rw [List.find?_cons] at h
    rw [List.filterMap_cons, hc]
    cases hy : y.name == n.toList with
    | true =>
      rw [hy] at h
      simp only [Option.some.injEq] at h
      subst h
      exact ⟨_, rfl⟩
    | false =>
      rw [hy] at h
      exact found_first s rd n cls hs hu hh es x h

theorem read_first (F : Fl) (s : Slot) (e x : Xml) (n cls : String) (hs : s.accepts = [(n, cls)]) (hu : s.needsUuid = false)
    (hh : s.how = .embedded) (hb : s.rbox = none) (h : e.child? n.toList = some x) :
    s.read classes (read classes F) e = [read classes F cls x] := by
  have hp : s.place e = e.kids := by unfold Slot.place; rw [hb]
  obtain ⟨l, hl⟩ := found_first s (read classes F) n cls hs hu hh e.kids x h
  unfold Slot.read
  rw [hh]
  have : (s.place e).filterMap (fun c => (s.created c).map (fun cls => read classes F cls c)) = read classes F cls x :: l := by
    rw [hp]; exact hl
  rw [this]

theorem crashes_member {k : List Obj} {o : Obj} (ho : o ∈ k) (hs : skipped classes o = false) (hc : crashes classes o = true) :
    crashesList classes k = true := by
  induction k with
  | nil => cases ho
  | cons a k ih =>
    rw [crashesList]
    rcases List.mem_cons.1 ho with h | h
    · rw [← h, hs, hc]; rfl
    · rw [ih h]; simp

/-- C90 does not hold for every description: if a mapping definition has no source, saving the scene uses a null pointer. -/
theorem C90_source_violated (F : Fl) (e sc aux md : Xml) (h1 : e.child? "Scene".toList = some sc) (h2 : sc.child? "AUXData".toList = some aux)
    (h3 : md ∈ aux.kids) (h4 : Called md "MappingDefinition") (h5 : ∀ x ∈ md.kids, x.name ≠ "Source".toList) :
    save classes (read classes F "SceneDataExchange" e) = none := by
  have r1 : row classes "SceneDataExchange" = ⟨"SceneDataExchange", "GeneralSceneDescription", [],
     [boxed "fProviderObjs" "UserData" [("Data", "SceneDataProviderObj")] false,
      ⟨"Scene", none, false, none, .embedded, ["Exchange.Scene"], [("Scene", "Exchange.Scene")]⟩], .never⟩ := by decide +kernel
  have r2 : row classes "Exchange.Scene" = ⟨"Exchange.Scene", "Scene", [],
     [boxed "fChildObjs" "Layers" [("Layer", "SceneDataLayerObj")] false,
      ⟨"AUXData", none, false, none, .embedded, ["Exchange.AUXData"], [("AUXData", "Exchange.AUXData")]⟩], .never⟩ := by decide +kernel
  have r3 : row classes "Exchange.AUXData" = ⟨"Exchange.AUXData", "AUXData", [],
     [⟨"fMappingDefinitionObjs", none, false, none, .many, ["SceneDataMappingDefinitionObj"],
        [("MappingDefinition", "SceneDataMappingDefinitionObj")]⟩,
      ⟨"fPositions", none, false, none, .many, ["SceneDataPositionObj"], [("Position", "SceneDataPositionObj")]⟩,
      ⟨"fSymDefObjs", none, false, none, .many, ["SceneDataSymDefObj"], [("Symdef", "SceneDataSymDefObj")]⟩], .never⟩ := by decide +kernel
  have r4 : row classes "SceneDataMappingDefinitionObj" = ⟨"SceneDataMappingDefinitionObj", "MappingDefinition", [uuidField, nameField],
     [child "fSizeX" "SizeX", child "fSizeY" "SizeY",
      ⟨"fSource", none, false, none, .needed, ["SceneDataSourceObj"], [("Source", "SceneDataSourceObj")]⟩,
      child "fScaleHandling" "ScaleHandling"], .never⟩ := by decide +kernel
  have c4 : crashes classes (read classes F "SceneDataMappingDefinitionObj" md) = true ∧
      skipped classes (read classes F "SceneDataMappingDefinitionObj" md) = false := by
    rw [read_eq, crashes, skipped, r4]
    refine ⟨?_, rfl⟩
    simp only [List.map_cons, List.map_nil, crashesSlots]
    have : (Slot.read classes ⟨"fSource", none, false, none, .needed, ["SceneDataSourceObj"], [("Source", "SceneDataSourceObj")]⟩
        (read classes F) md) = [] := by
      show (Slot.found ⟨"fSource", none, false, none, .needed, ["SceneDataSourceObj"], [("Source", "SceneDataSourceObj")]⟩
        (read classes F) md.kids).take 1 = []
      rw [found_none]
      · rfl
      · intro x hx
        have := h5 x hx
        simpa [Slot.same] using this
    rw [this]
    simp
  have c3 : crashes classes (read classes F "Exchange.AUXData" aux) = true ∧ skipped classes (read classes F "Exchange.AUXData" aux) = false := by
    rw [read_eq, crashes, skipped, r3]
    refine ⟨?_, rfl⟩
    simp only [List.map_cons, List.map_nil, crashesSlots]
    rw [crashes_member (o := read classes F "SceneDataMappingDefinitionObj" md) _ c4.2 c4.1]
    · simp
    · show _ ∈ Slot.found _ (read classes F) aux.kids
      unfold Slot.found
      rw [List.mem_filterMap]
      refine ⟨md, h3, ?_⟩
      have hm : eqNoCase md.name "MappingDefinition".toList = true := by
        unfold eqNoCase
        rw [← upper_eq, ← upper_eq]
        exact decide_eq_true h4
      unfold Slot.created Slot.same Slot.needsUuid
      simp only [if_true]
      rw [List.find?_cons, hm]
      simp
  have c2 : crashes classes (read classes F "Exchange.Scene" sc) = true ∧ skipped classes (read classes F "Exchange.Scene" sc) = false := by
    rw [read_eq, crashes, skipped, r2]
    refine ⟨?_, rfl⟩
    simp only [List.map_cons, List.map_nil, crashesSlots]
    rw [read_first F ⟨"AUXData", none, false, none, .embedded, ["Exchange.AUXData"], [("AUXData", "Exchange.AUXData")]⟩ sc aux "AUXData" "Exchange.AUXData" rfl (by decide) rfl rfl h2, crashes_member (List.mem_singleton_self _) c3.2 c3.1]
    simp
  have c1 : crashes classes (read classes F "SceneDataExchange" e) = true := by
    rw [read_eq, crashes, r1]
    simp only [List.map_cons, List.map_nil, crashesSlots]
    rw [read_first F ⟨"Scene", none, false, none, .embedded, ["Exchange.Scene"], [("Scene", "Exchange.Scene")]⟩ e sc "Scene" "Exchange.Scene" rfl (by decide) rfl rfl h1, crashes_member (List.mem_singleton_self _) c2.2 c2.1]
    simp
  unfold save
  rw [c1]
  rfl

/-- A negative size is a large size, and that is saved but cannot be read again. -/
theorem C90_negative_violated (F : Fl) : ∃ e x : Xml, Called e "SizeX" ∧ save classes (read classes F "fSizeX" e) = some x ∧
    read classes F "fSizeX" e = .mk "fSizeX" [.int 4294967295] [] ∧ read classes F "fSizeX" x = .mk "fSizeX" [.undef] [] := by
  have r : row classes "fSizeX" = leaf "fSizeX" "SizeX" .uint32 (.int 0) := by decide +kernel
  have hr : ∀ t : Text, read classes F "fSizeX" (.elem "SizeX".toList [] t []) =
      .mk "fSizeX" [result (fun n : Nat => .int n) (.int 0) (readUnsigned 32 t 0)] [] := by
    intro t; rw [read_eq, r]; rfl
  have h1 : result (fun n : Nat => Val.int n) (.int 0) (readUnsigned 32 "-1".toList 0) = .int 4294967295 := by decide +kernel
  have h2 : result (fun n : Nat => Val.int n) (.int 0) (readUnsigned 32 "4294967295".toList 0) = .undef := by decide +kernel
  have h3 : writeInteger 4294967295 = "4294967295".toList := by decide +kernel
  refine ⟨.elem "SizeX".toList [] "-1".toList [], .elem "SizeX".toList [] "4294967295".toList [], by decide, ?_, ?_, ?_⟩
  · rw [hr, h1]
    unfold save
    rw [crashes, r, write, r]
    simp only [crashesSlots, Bool.false_eq_true, if_false]
    have : textOf (leaf "fSizeX" "SizeX" .uint32 (.int 0)).fields [.int 4294967295] = "4294967295".toList := by
      rw [← h3]; rfl
    rw [this]
    rfl
  · rw [hr, h1]
  · rw [hr, h2]

theorem same_last : ∀ {ks ls : List (List Obj)}, SameAll ks ls → ks.getLast? = some [] → ls.getLast? = some []
  | [], _, _, h => by simp at h
  | [k], [], h, _ => by simp [SameAll] at h
  | [k], [l], h, hk => by
    simp only [List.getLast?_singleton, Option.some.injEq] at hk ⊢
    rw [SameAll] at h
    subst hk
    cases l with
    | nil => rfl
    | cons _ _ => exact absurd h.1 (by simp [SameList])
  | [k], _ :: _ :: _, h, _ => by rw [SameAll] at h; exact absurd h.2 (by simp [SameAll])
  | _ :: _ :: _, [], h, _ => by simp [SameAll] at h
  | _ :: _ :: _, [_], h, _ => by rw [SameAll] at h; exact absurd h.2 (by simp [SameAll])
  | _ :: k :: ks, _ :: l :: ls, h, hk => by
    rw [SameAll] at h
    rw [List.getLast?_cons_cons] at hk ⊢
    exact same_last h.2 hk

theorem prune_last : ∀ {ks : List (List Obj)} {k : List Obj}, ks.getLast? = some k → (pruneAll ks).getLast? = some (pruneList k)
  | [], _, h => by simp at h
  | [l], k, h => by
    simp only [List.getLast?_singleton, Option.some.injEq] at h
    simp [pruneAll, h]
  | a :: b :: ks, k, h => by
    rw [List.getLast?_cons_cons] at h
    have := prune_last h
    rw [pruneAll] at this ⊢
    rw [pruneAll, List.getLast?_cons_cons]
    exact this

/-- Saving and reading again and again does not leave a scene alone: a group that contains only empty groups is in the saved description, but the
group that is read from it is empty, and is left out when the scene is saved the next time. -/
theorem C90_again_violated (F : Fl) (vs : List Val) (ks : List (List Obj)) (k : List Obj) (h : Build (.mk "SceneDataGroupObj" vs ks))
    (hk : ks.getLast? = some k) (hne : k ≠ []) (he : ∀ g ∈ k, EmptyGroup g) :
    skipped classes (.mk "SceneDataGroupObj" vs ks) = false ∧
      EmptyGroup (read classes F "SceneDataGroupObj" (write classes (.mk "SceneDataGroupObj" vs ks))) ∧
      skipped classes (read classes F "SceneDataGroupObj" (write classes (.mk "SceneDataGroupObj" vs ks))) = true := by
  have hs : (row classes "SceneDataGroupObj").skip = .noChildren := by decide +kernel
  have hp : ∀ l : List Obj, (∀ g ∈ l, EmptyGroup g) → pruneList l = [] := by
    intro l
    induction l with
    | nil => intro _; rw [pruneList]
    | cons g l ih => intro hl; rw [pruneList, if_pos (hl g (by simp)), ih (fun x hx => hl x (by simp [hx]))]
  have hb := C65_partial F _ h
  simp only [Obj.cls] at hb
  have hge : EmptyGroup (read classes F "SceneDataGroupObj" (write classes (.mk "SceneDataGroupObj" vs ks))) := by
    rw [read_eq] at hb ⊢
    rw [prune, Same] at hb
    refine ⟨rfl, same_last hb.2.2 ?_⟩
    rw [prune_last hk, hp k he]
  refine ⟨?_, hge, ?_⟩
  · rw [skipped, hs, Skip.test, hk]
    cases k with
    | nil => exact absurd rfl hne
    | cons _ _ => rfl
  · rw [read_eq] at hge ⊢
    rw [skipped, hs, Skip.test, hge.2]
    rfl

/-! ### Cases that meet the hypotheses -/

instance (e : Xml) : Decidable (SaneNode e) :=
  have : Decidable (∀ t, e.attr? "break".toList = some t → Short t ∧ '-' ∉ t) := by
    cases h : e.attr? "break".toList with
    | none => exact isTrue (by simp)
    | some t => exact decidable_of_iff (Short t ∧ '-' ∉ t) (by simp)
  have : Decidable (Called e "Gobo" → e.text = [] → e.attr? "rotation".toList = none) := by infer_instance
  decidable_of_iff ((∀ m ∈ counts, Called e m → Short e.text ∧ '-' ∉ e.text) ∧ (∀ m ∈ signedCounts, Called e m → Short e.text) ∧
      (∀ t, e.attr? "break".toList = some t → Short t ∧ '-' ∉ t) ∧ (∀ m ∈ filled, Called e m → e.text ≠ []) ∧
      (Called e "Gobo" → e.text = [] → e.attr? "rotation".toList = none) ∧ (∀ p ∈ required, Called e p.1 → ∃ x ∈ e.kids, x.name = p.2.toList))
    ⟨fun ⟨a, b, c, d, f, g⟩ => ⟨a, b, c, d, f, g⟩, fun ⟨a, b, c, d, f, g⟩ => ⟨a, b, c, d, f, g⟩⟩

mutual
/-- A check for `Sane`. -/
def saneB : Xml → Bool
  | .elem n a t k => decide (SaneNode (.elem n a t k)) && saneAllB k
/-- A check for `SaneAll`. -/
def saneAllB : List Xml → Bool
  | [] => true
  | x :: k => saneB x && saneAllB k
end

mutual
theorem saneB_sound : ∀ e, saneB e = true → Sane e
  | .elem n a t k, h => by
    rw [saneB, Bool.and_eq_true, decide_eq_true_eq] at h
    rw [Sane]
    exact ⟨h.1, saneAllB_sound k h.2⟩
theorem saneAllB_sound : ∀ k, saneAllB k = true → SaneAll k
  | [], _ => by rw [SaneAll]; trivial
  | x :: k, h => by
    rw [saneAllB, Bool.and_eq_true] at h
    rw [SaneAll]
    exact ⟨saneB_sound x h.1, saneAllB_sound k h.2⟩
end

/-- A node with a text. -/
def tag (n t : String) : Xml := .elem n.toList [] t.toList []

/-- A description of another program, with unknown nodes, names in other cases, texts that are no numbers, no UUID and no matrix. -/
def odd : Xml :=
  .elem "GeneralSceneDescription".toList [("verMajor".toList, "1".toList)] []
    [tag "Comment" "made by hand",
     .elem "Scene".toList [] []
       [.elem "AUXData".toList [] []
          [.elem "MAPPINGDEFINITION".toList [("uuid".toList, "nonsense".toList)] [] [tag "SizeX" "1920", tag "Source" "movie.mov"]],
        .elem "Layers".toList [] []
          [.elem "layer".toList [("uuid".toList, "x".toList)] []
            [.elem "ChildList".toList [] []
              [.elem "Fixture".toList [("uuid".toList, "y".toList), ("color".toList, "red".toList)] []
                 [tag "Matrix" "{1,2}{3}", tag "UnitNumber" "-7", tag "CustomId" "abc", tag "Color" "red",
                  .elem "Addresses".toList [] [] [.elem "Address".toList [("break".toList, "2".toList)] "513".toList []],
                  .elem "Mappings".toList [] []
                    [.elem "Mapping".toList [] [] [tag "ux" "10", tag "uy" "20", tag "ox" "0", tag "oy" "1", tag "rz" "45.5"]]],
               .elem "GroupObject".toList [("uuid".toList, "z".toList)] [] []]]]]]

example (F : Fl) : ∃ x, save classes (read classes F "SceneDataExchange" odd) = some x ∧
    Same (prune (read classes F "SceneDataExchange" odd)) (read classes F "SceneDataExchange" x) :=
  C90_saved_partial F odd rfl (saneB_sound _ (by decide +kernel))

/-- A scene with a mapping definition without a source. -/
def sourceless : Xml :=
  .elem "GeneralSceneDescription".toList [] [] [.elem "Scene".toList [] [] [.elem "AUXData".toList [] []
    [.elem "MappingDefinition".toList [("uuid".toList, "0b7cc4ff-0d9c-4ed6-8d3c-4b3a8a4ff0a1".toList)] [] [tag "SizeX" "1920", tag "SizeY" "1080"]]]]

example (F : Fl) : save classes (read classes F "SceneDataExchange" sourceless) = none :=
  C90_source_violated F sourceless _ _ _ rfl rfl (by simp [Scene.Xml.kids]; rfl) (by decide) (by decide)

/-- A group with an empty group in it. -/
def nested : List (List Obj) :=
  plainMembers .identity ++ [[.mk "SceneDataGroupObj" [.uuid (List.replicate 16 2), .text "Inner".toList] (plainMembers .identity ++ [[]])]]

example (F : Fl) : EmptyGroup (read classes F "SceneDataGroupObj"
    (write classes (.mk "SceneDataGroupObj" [.uuid (List.replicate 16 3), .text "Outer".toList] nested))) :=
  (C90_again_violated F _ _ _ (buildB_sound _ (by decide +kernel)) rfl (by simp) (by simp [EmptyGroup, plainMembers])).2.1

end Verif.Mvr
