import Verif.Mvr.ForeignLemmas
import Verif.Mvr.SceneProps

/-!
# C87: descriptions of other programs
-/

namespace Verif.Mvr

open Verif.Str Verif.Text Verif.Real Verif.Dmx Spec
open Verif.Gdtf (charsOf bytesOf attrIn)
open Verif.Xml (readBuffer writeXmlText)
open Verif.Xml.Spec (levels)

/-- **C87**, nodes: whatever object is read from a node, unknown nodes and attributes and the order of known ones make no difference. -/
theorem C87_node (F : Fl) (e f : Xml) (h : Alike e f) (cls : String) : read classes F cls e = read classes F cls f :=
  seen_read (alike_seen F h) cls

/-- **C87**, files: two descriptions in UTF-8 whose documents differ only in unknown nodes and attributes and in the order of known ones give the
same scene, whatever the reader has read before. -/
theorem C87_description (F : Fl) (b c : List Byte) (d f : Xml) (hb : readBuffer (charsOf b) = some d) (hc : readBuffer (charsOf c) = some f)
    (hd : Utf8Xml d) (hf : Utf8Xml f) (h : Alike d f) (e : Exchange) : e.read F (some b) = e.read F (some c) := by
  unfold Exchange.read
  simp only [hb, hc]
  have hs := alike_seen F h
  rw [utf8Xml_converts _ hd, utf8Xml_converts _ hf, hs.attrs "verMajor" (by decide), hs.attrs "verMinor" (by decide), C87_node F d f h]

/-- **C87**, scenes: a description in UTF-8 that says what this library would write for a scene, with any further nodes and attributes and in
another order, is read as this scene. -/
theorem C87_scene_partial (F : Fl) (w : Exchange) (hw : Ordinary w) (hl : levels (write classes w.content) ≤ 98) (b : List Byte) (d : Xml)
    (hb : readBuffer (charsOf b) = some d) (hd : Utf8Xml d) (h : Alike w.doc d) (e : Exchange) :
    ∃ r, e.read F (some b) = some r ∧ Gained e w r := by
  have hr := describe_read hw
  rw [if_pos hl] at hr
  rw [← C87_description F w.describe b w.doc d hr hb (doc_utf8 hw) hd h e]
  exact (C86_description_partial F w hw hl).1 e

theorem place_box {s : Slot} {b : String} (hb : s.rbox = some b) {n : Text} {a : List (Text × Text)} {t : Text} {k : List Xml} :
    s.place (.elem n a t k) = ((k.find? (fun c => c.name == b.toList)).map (·.kids)).getD [] := by
  unfold Slot.place
  rw [hb]
  rfl

theorem place_kids {s : Slot} (hb : s.rbox = none) {n : Text} {a : List (Text × Text)} {t : Text} {k : List Xml} :
    s.place (.elem n a t k) = k := by
  unfold Slot.place
  rw [hb]
  rfl

/-- The name of a node has no influence on the object read from it. -/
theorem read_name (F : Fl) (n n' : Text) (a : List (Text × Text)) (t : Text) (k : List Xml) (cls : String) :
    read classes F cls (.elem n a t k) = read classes F cls (.elem n' a t k) := by
  rw [read_eq, read_eq]
  congr 1

/-- The lists in which objects must have a UUID, with the class of the object they are in. -/
def identified : List (String × String) := ("Exchange.Scene", "Layers") :: ("SceneDataLayerObj", "ChildList") ::
  [("SceneDataFixtureObj", "ChildList"), ("SceneDataSceneryObj", "ChildList"), ("SceneDataFocusPointObj", "ChildList"),
   ("SceneDataTrussObj", "ChildList"), ("SceneDataVideoScreenObj", "ChildList"), ("SceneDataSupportObj", "ChildList"),
   ("SceneDataProjectorObj", "ChildList"), ("SceneDataGroupObj", "ChildList")]

theorem identified_known : ∀ p ∈ identified, ∀ s ∈ (row classes p.1).slots,
    (s.rbox = some p.2 ∧ s.needsUuid = true) ∨ (s.rbox = none ∧ s.accepts.any (fun q => s.same p.2.toList q.1) = false) ∨
      (s.rbox ≠ none ∧ s.rbox ≠ some p.2) := by decide +kernel

/-- **C87**, objects without a UUID: a layer, or an object of a layer, a group or another object, that has no UUID is not read, nor is anything
in it; everything else is read as if it were not there. -/
theorem C87_no_uuid (F : Fl) (cls box : String) (hc : (cls, box) ∈ identified) (n : Text) (a ba : List (Text × Text)) (t bt : Text)
    (k l p q : List Xml) (x : Xml) (h : x.attr? "uuid".toList = none) :
    read classes F cls (.elem n a t (k ++ .elem box.toList ba bt (p ++ x :: q) :: l)) =
      read classes F cls (.elem n a t (k ++ .elem box.toList ba bt (p ++ q) :: l)) := by
  rw [read_eq, read_eq]
  congr 1
  apply List.map_congr_left
  intro s hs
  apply slot_read_found
  have hbox : ∀ ks : List Xml, ((Scene.Xml.elem box.toList ba bt ks).name == box.toList) = true := fun ks => by simp [Scene.Xml.name]
  rcases identified_known _ hc s hs with ⟨h1, h2⟩ | ⟨h1, h2⟩ | ⟨h1, h2⟩
  · rw [place_box h1, place_box h1]
    simp only [List.find?_append, List.find?_cons, hbox]
    cases k.find? (fun c => c.name == box.toList) with
    | some c => rfl
    | none =>
      have : s.created x = none := by
        unfold Slot.created
        rw [h2, h]
        rfl
      show s.found _ (p ++ x :: q) = s.found _ (p ++ q)
      rw [found_append, found_cons, found_single_none _ this, found_append]
      rfl
  · rw [place_kids h1, place_kids h1]
    have hno : ∀ ks : List Xml, s.found (read classes F) [.elem box.toList ba bt ks] = [] :=
      fun ks => found_single_none _ (created_none h2)
    rw [found_append, found_append, found_cons, found_cons _ _ _ l, hno, hno]
  · cases hb : s.rbox with
    | none => exact absurd hb h1
    | some b =>
      have hne : box.toList ≠ b.toList := by
        intro e
        apply h2
        rw [hb, String.toList_inj.1 e]
      have hf : ∀ ks : List Xml, ((Scene.Xml.elem box.toList ba bt ks).name == b.toList) = false := fun ks => by simpa [Scene.Xml.name] using hne
      rw [place_box hb, place_box hb]
      simp only [List.find?_append, List.find?_cons, hf]

theorem layer_known : ∀ s ∈ (row classes "SceneDataLayerObj").slots,
    (s.rbox = some "ChildList" → s.how = .many) ∧
    (s.rbox = none → s.how ≠ .many ∧ ∀ p ∈ s.accepts, p.1 = "Matrix" ∨ Differ p.1.toList "Matrix".toList) ∧
    (∀ b, s.rbox = some b → Differ b.toList "Matrix".toList) := by
  have : ∀ s ∈ (row classes "SceneDataLayerObj").slots, (s.rbox = some "ChildList" → s.how = .many) ∧
    (s.rbox = none → s.how ≠ .many ∧ ∀ p ∈ s.accepts, p.1 = "Matrix" ∨ Differ p.1.toList "Matrix".toList) ∧
    (s.rbox.all (fun b => decide (Differ b.toList "Matrix".toList))) = true := by decide +kernel
  intro s hs
  obtain ⟨h1, h2, h3⟩ := this s hs
  refine ⟨h1, h2, fun b hb => ?_⟩
  rw [hb] at h3
  simpa using h3

/-- **Violation of C87**: a node of a list of objects whose name differs from a known one in upper and lower case (`FIXTURE`; another name in
XML) is not ignored but read as the known one, whereas other nodes with such names are ignored. -/
theorem C87_case_violated (F : Fl) (n m : Text) (hn : ¬ Differ n "Fixture".toList) (hm : m ≠ "Matrix".toList) (hm' : ¬ Differ m "Matrix".toList)
    (a : List (Text × Text)) (t : Text) (k : List Xml) (u : Text) :
    read classes F "SceneDataLayerObj" (.elem "Layer".toList [] [] [.elem "ChildList".toList [] [] [.elem n a t k]]) =
      read classes F "SceneDataLayerObj" (.elem "Layer".toList [] [] [.elem "ChildList".toList [] [] [.elem "Fixture".toList a t k]]) ∧
    read classes F "SceneDataLayerObj" (.elem "Layer".toList [] [] [.elem m [] u []]) =
      read classes F "SceneDataLayerObj" (.elem "Layer".toList [] [] []) := by
  have hu : makeUpper n = makeUpper "Fixture".toList := by
    have := hn
    unfold Differ at this
    exact Classical.not_not.1 this
  have hmu : m.map upper = "Matrix".toList.map upper := by
    have := hm'
    unfold Differ at this
    exact Classical.not_not.1 this
  refine ⟨?_, ?_⟩
  · rw [read_eq, read_eq classes F "SceneDataLayerObj" (.elem "Layer".toList [] [] [.elem "ChildList".toList [] [] [.elem "Fixture".toList a t k]])]
    congr 1
    apply List.map_congr_left
    intro s hs
    apply slot_read_found
    rcases identified_known ("SceneDataLayerObj", "ChildList") (by decide) s hs with ⟨h1, h2⟩ | ⟨h1, h2⟩ | ⟨h1, h2⟩
    · rw [place_box h1, place_box h1]
      show s.found _ [.elem n a t k] = s.found _ [.elem "Fixture".toList a t k]
      have hc : s.created (.elem n a t k) = s.created (.elem "Fixture".toList a t k) := by
        have : ∀ q, s.same n q = s.same "Fixture".toList q := by
          intro q
          unfold Slot.same
          rw [(layer_known s hs).1 h1]
          simp only [if_true, eqNoCase, hu]
        unfold Slot.created
        simp only [Scene.Xml.name, this]
        rfl
      unfold Slot.found
      simp only [List.filterMap_cons, List.filterMap_nil, hc]
      cases s.created (.elem "Fixture".toList a t k) with
      | none => rfl
      | some c => simp only [Option.map_some, read_name F n "Fixture".toList]
    · rw [place_kids h1, place_kids h1, found_single_none _ (created_none h2), found_single_none _ (created_none h2)]
    · cases hb : s.rbox with
      | none => exact absurd hb h1
      | some b =>
        have hne : ("ChildList".toList == b.toList) = false := by
          rw [beq_eq_false_iff_ne]
          intro e
          apply h2
          rw [hb, String.toList_inj.1 e]
        rw [place_box hb, place_box hb]
        simp only [List.find?_cons, Scene.Xml.name, hne, List.find?_nil]
  · rw [read_eq, read_eq classes F "SceneDataLayerObj" (.elem "Layer".toList [] [] [])]
    congr 1
    apply List.map_congr_left
    intro s hs
    apply slot_read_found
    obtain ⟨-, h2, h3⟩ := layer_known s hs
    cases hb : s.rbox with
    | none =>
      obtain ⟨h4, h5⟩ := h2 hb
      rw [place_kids hb, place_kids hb]
      apply found_single_none
      apply created_none
      rw [List.any_eq_false]
      intro p hp
      simp only [Slot.same, if_neg h4, Scene.Xml.name, beq_iff_eq]
      intro e
      rcases h5 p hp with h | h
      · exact hm (by rw [e, h])
      · exact h (by rw [← e]; exact hmu)
    | some b =>
      have hne : (m == b.toList) = false := by
        rw [beq_eq_false_iff_ne]
        intro e
        exact h3 b hb (by rw [← e]; exact hmu)
      rw [place_box hb, place_box hb]
      simp only [List.find?_cons, Scene.Xml.name, hne, List.find?_nil]

/-! ### Cases that meet the hypotheses -/

/-- The node of another program, with a node inside it that has a known name. -/
def extras : Xml := .elem "Extras".toList [("count".toList, "2".toList)] [] [.elem "Layer".toList [("uuid".toList, "1".toList)] [] []]

/-- The document of a scene with another attribute in front and another node behind the known ones. -/
def extended : Xml → Xml
  | .elem n a t k => .elem n (("xmlns".toList, "urn:x".toList) :: a) t (k ++ [extras])

theorem extended_alike (d : Xml) : Alike d (extended d) := by
  cases d with
  | elem n a t k =>
    refine .trans (.symm (.extraAttribute n [] a ("xmlns".toList, "urn:x".toList) t k (by decide))) ?_
    have := Alike.extraNode n (("xmlns".toList, "urn:x".toList) :: a) t k [] extras (by decide +kernel)
    rw [List.append_nil] at this
    exact .symm this

theorem plains_append : ∀ {k l : List Xml}, Xml.Spec.Plains k → Xml.Spec.Plains l → Xml.Spec.Plains (k ++ l)
  | [], _, _, h => h
  | x :: k, _, h1, h2 => by
    rw [Xml.Spec.Plains] at h1
    exact (Xml.Spec.Plains.eq_2 ..).symm ▸ ⟨h1.1, plains_append h1.2 h2⟩

theorem extended_utf8 : Utf8Xml (extended sample.doc) := by
  have h := doc_utf8 sample_ordinary
  obtain ⟨k, -, h2⟩ := doc_eq sample
  rw [h2, Utf8Xml] at h
  rw [h2, extended, Utf8Xml]
  refine ⟨h.1, ?_, h.2.2.1, utf8Xmls_append h.2.2.2 ?_⟩
  · intro p hp
    rcases List.mem_cons.1 hp with rfl | hp
    · exact ⟨ascii_utf8 (by decide), ascii_utf8 (by decide)⟩
    · exact h.2.1 p hp
  · simp only [extras, Utf8Xmls, Utf8Xml, and_true]
    refine ⟨ascii_utf8 (by decide), ?_, utf8_nil, ascii_utf8 (by decide), ?_, utf8_nil⟩
    all_goals
      intro p hp
      rw [List.mem_singleton.1 hp]
      exact ⟨ascii_utf8 (by decide), ascii_utf8 (by decide)⟩

theorem extended_plain : Xml.Spec.Plain (extended sample.doc) := by
  have h := doc_plain sample_ordinary
  obtain ⟨k, -, h2⟩ := doc_eq sample
  rw [h2, Xml.Spec.Plain] at h
  rw [h2, extended, Xml.Spec.Plain]
  refine ⟨h.1, ?_, ?_, h.2.2.2.1, h.2.2.2.2.1, plains_append h.2.2.2.2.2 ?_⟩
  · intro p hp
    rcases List.mem_cons.1 hp with rfl | hp
    · exact ⟨Xml.nameOk _ _ rfl (by decide) (by decide), by decide⟩
    · exact h.2.1 p hp
  · exact (by decide : ["xmlns".toList, "verMajor".toList, "verMinor".toList, "provider".toList, "providerVersion".toList].Nodup)
  · simp only [extras, Xml.Spec.Plains, Xml.Spec.Plain, and_true]
    refine ⟨Xml.nameOk _ _ rfl (by decide) (by decide), ?_, by decide, by decide, .inl trivial, Xml.nameOk _ _ rfl (by decide) (by decide), ?_, by decide, by decide, .inl trivial⟩
    all_goals
      intro p hp
      rw [List.mem_singleton.1 hp]
      exact ⟨Xml.nameOk _ _ rfl (by decide) (by decide), by decide⟩

theorem extended_levels : levels (extended sample.doc) ≤ 98 := by decide +kernel

theorem extended_read : readBuffer (charsOf (bytesOf (writeXmlText (extended sample.doc)))) = some (extended sample.doc) := by
  rw [Gdtf.chars_bytes (Gdtf.octets_text (utf8Xml_octets _ extended_utf8)), Xml.read_tree _ extended_plain, if_pos extended_levels]

example (F : Fl) (e : Exchange) : ∃ r, e.read F (some (bytesOf (writeXmlText (extended sample.doc)))) = some r ∧ Gained e sample r :=
  C87_scene_partial F sample sample_ordinary sample_levels _ _ extended_read extended_utf8 (extended_alike _) e

example (F : Fl) (e : Exchange) : e.read F (some (bytesOf (writeXmlText (extended sample.doc)))) = e.read F (some sample.describe) :=
  C87_description F _ _ _ _ extended_read (by rw [describe_read sample_ordinary, if_pos sample_levels]) extended_utf8 (doc_utf8 sample_ordinary)
    (.symm (extended_alike _)) e

example (F : Fl) : read classes F "SceneDataFixtureObj" (.elem "Fixture".toList [("uuid".toList, "1".toList), ("name".toList, "a".toList)] []
    [.elem "UnitNumber".toList [] "5".toList [], .elem "Matrix".toList [] [] []]) =
    read classes F "SceneDataFixtureObj" (.elem "Fixture".toList [("name".toList, "a".toList), ("uuid".toList, "1".toList)] []
      [.elem "Matrix".toList [] [] [], .elem "UnitNumber".toList [] "5".toList []]) :=
  C87_node F _ _ (.trans (.attributeOrder _ [] [] _ _ _ _ (by decide)) (.nodeOrder _ _ _ [] [] _ _ (by decide) (by decide))) _

example (F : Fl) : read classes F "SceneDataLayerObj" (.elem "Layer".toList [] [] [.elem "ChildList".toList [] [] [.elem "Truss".toList [] [] []]]) =
    read classes F "SceneDataLayerObj" (.elem "Layer".toList [] [] [.elem "ChildList".toList [] [] []]) :=
  C87_no_uuid F "SceneDataLayerObj" "ChildList" (by decide) _ _ _ _ _ [] [] [] [] (.elem "Truss".toList [] [] []) rfl

example (F : Fl) : read classes F "SceneDataLayerObj" (.elem "Layer".toList [] [] [.elem "matrix".toList [] "{1,2,3}".toList []]) =
      read classes F "SceneDataLayerObj" (.elem "Layer".toList [] [] []) :=
  (C87_case_violated F "FIXTURE".toList "matrix".toList (by decide) (by decide) (by decide) [] [] [] _).2

end Verif.Mvr
