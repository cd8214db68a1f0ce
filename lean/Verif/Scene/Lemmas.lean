import Verif.Scene.Spec
import Verif.Uuid.Props

namespace Verif.Scene

open Verif.Scene.Spec
open Verif.Uuid (convertToText convertFromText zero)

theorem guid_convertToText (u : Uuid) (h : u.length = 16) : guid (convertToText u) = u := by
  have := Verif.Uuid.C09_converter u zero h
  rw [guid, this]

theorem convertToText_ne (u : Uuid) : convertToText u ≠ [] := by
  intro h
  have := Verif.Uuid.toText_length_false u
  rw [convertToText] at h
  rw [h] at this; simp at this

theorem convertToText_inj {u v : Uuid} (hu : u.length = 16) (hv : v.length = 16)
    (h : convertToText u = convertToText v) : u = v := by
  rw [← guid_convertToText u hu, h, guid_convertToText v hv]

theorem kindOf_nodeName (k : Kind) : kindOf k.nodeName = some k := by cases k <;> decide

theorem layer_name : eqText "Layer".toList "Layer".toList = true := by decide
theorem pos_class : eqText "Position".toList "Class".toList = false := by decide
theorem class_pos : eqText "Class".toList "Position".toList = false := by decide
theorem class_class : eqText "Class".toList "Class".toList = true := by decide
theorem pos_pos : eqText "Position".toList "Position".toList = true := by decide

theorem attr_uuid (n : Text) (u : Uuid) (nm : Text) (m : Option Uuid) (t : Text) (ks : List Xml) :
    (Xml.elem n (attrsOf u nm m) t ks).attr? "uuid".toList = some (convertToText u) := by
  simp [Xml.attr?, attrsOf]

theorem attr_name (n : Text) (u : Uuid) (nm : Text) (m : Option Uuid) (t : Text) (ks : List Xml) :
    readName (Xml.elem n (attrsOf u nm m) t ks) = nm := by
  by_cases h : nm = []
  · subst h
    cases m <;> simp [readName, Xml.attr?, attrsOf]
  · cases m <;> simp [readName, Xml.attr?, attrsOf, h]

theorem attr_multipatch (n : Text) (u : Uuid) (nm : Text) (m : Option Uuid) (t : Text) (ks : List Xml) :
    ((Xml.elem n (attrsOf u nm m) t ks).attr? "multipatch".toList).getD [] =
      (match m with | none => [] | some v => convertToText v) := by
  by_cases h : nm = []
  · subst h
    cases m <;> simp [Xml.attr?, attrsOf]
  · cases m <;> simp [Xml.attr?, attrsOf, h]

theorem find_mem (l : List Uuid) (u : Uuid) : l.find? (· == u) = (some u).filter (· ∈ l) := by
  by_cases h : u ∈ l
  · rw [Option.filter_some]
    simp only [h, decide_true, if_true]
    induction l with
    | nil => simp at h
    | cons a l ih =>
      by_cases ha : a = u
      · simp [ha]
      · rw [List.find?_cons_of_neg (by simpa using ha)]
        exact ih (by simpa [Ne.symm ha] using h)
  · rw [Option.filter_some]
    simp only [h, decide_false, Bool.false_eq_true, if_false]
    rw [List.find?_eq_none]
    intro x hx; simp; rintro rfl; exact h hx

theorem readMultipatch_print (st : St) (n : Text) (u : Uuid) (nm : Text) (m : Option Uuid) (t : Text)
    (ks : List Xml) (hm : ∀ v, m = some v → v.length = 16) :
    readMultipatch st (Xml.elem n (attrsOf u nm m) t ks) = m.filter (· ∈ st.objs) := by
  rw [readMultipatch, attr_multipatch]
  cases m with
  | none => simp
  | some v =>
    simp only [convertToText_ne, if_false]
    rw [guid_convertToText v (hm v rfl), find_mem]

/-- What the reading functions keep of the references of an object. -/
def rawOf (k : Option Kind) (l : Links) : Raw :=
  { cls := (match l.cls with | none => [] | some c => convertToText c.uuid)
    focus := if k = some .fixture then (match l.focus with | none => [] | some f => convertToText f) else []
    position := if k = some .fixture then (match l.position with | none => [] | some p => convertToText p.uuid) else [] }

theorem readRaw_obj (k : Kind) (l : Links) (n : Text) (as : List (Text × Text)) (t : Text) (b : Bool) (ks : List Xml) :
    readRaw (some k) (Xml.elem n as t (classNodes l ++ childListNode b ks ++ fixtureNodes k l)) = rawOf (some k) l := by
  obtain ⟨c, p, f⟩ := l
  by_cases hk : k = .fixture
  · subst hk
    cases c <;> cases p <;> cases f <;> cases b <;> rfl
  · have : ¬ (some k = some Kind.fixture) := by simpa using hk
    simp only [readRaw, rawOf, this, if_false, fixtureNodes, hk]
    cases c <;> cases b <;> rfl

theorem readRaw_layer (l : Links) (n : Text) (as : List (Text × Text)) (t : Text) (b : Bool) (ks : List Xml) :
    readRaw none (Xml.elem n as t (classNodes l ++ childListNode b ks)) = rawOf none l := by
  obtain ⟨c, p, f⟩ := l
  cases c <;> cases b <;> rfl

theorem readChildList_skip (st : St) (n : Text) (v : Text) (rest : List Xml) (h : n ≠ "ChildList".toList) :
    readChildList st (textNode n v :: rest) = readChildList st rest := by
  rw [textNode, readChildList, if_neg h]

theorem readChildList_class (st : St) (l : Links) (rest : List Xml) :
    readChildList st (classNodes l ++ rest) = readChildList st rest := by
  obtain ⟨c, p, f⟩ := l
  cases c with
  | none => rfl
  | some c => exact readChildList_skip st _ _ _ (by decide)

theorem readChildList_fixture (st : St) (k : Kind) (l : Links) :
    readChildList st (fixtureNodes k l) = (st, []) := by
  obtain ⟨c, p, f⟩ := l
  by_cases hk : k = .fixture
  · subst hk
    cases p <;> cases f
    · rfl
    · exact readChildList_skip st _ _ _ (by decide)
    · exact readChildList_skip st _ _ _ (by decide)
    · simp only [fixtureNodes, if_true, List.cons_append, List.nil_append]
      rw [readChildList_skip st _ _ _ (by decide), readChildList_skip st _ _ _ (by decide)]
      rfl
  · simp only [fixtureNodes, hk, if_false]; rfl

theorem readChildList_child (st : St) (b : Bool) (ks : List Xml) (rest : List Xml) :
    readChildList st (childListNode b ks ++ rest) = if b then readNodes st ks else readChildList st rest := by
  cases b
  · rfl
  · rw [childListNode]
    simp only [if_true, List.cons_append, List.nil_append]
    rw [readChildList, if_pos rfl]

mutual
/-- Writing and reading an object, in one step. -/
def sim (st : St) : Obj Links → St × List (Obj Raw)
  | .mk k u n m l kids =>
    if k = .group ∧ kids.isEmpty then (st, [])
    else
      let r := sims (pushFocus st k u) kids
      (pushObj r.1 k u, [.mk k u n (m.filter (· ∈ st.objs)) (rawOf (some k) l) r.2])
/-- Writing and reading a list of objects. -/
def sims (st : St) : List (Obj Links) → St × List (Obj Raw)
  | [] => (st, [])
  | o :: os =>
    let r := sim st o
    let r' := sims r.1 os
    (r'.1, r.2 ++ r'.2)
end

theorem readNodes_append (st : St) (xs ys : List Xml) :
    readNodes st (xs ++ ys) =
      ((readNodes (readNodes st xs).1 ys).1, (readNodes st xs).2 ++ (readNodes (readNodes st xs).1 ys).2) := by
  induction xs generalizing st with
  | nil => simp [readNodes]
  | cons x xs ih => simp only [List.cons_append, readNodes, ih, List.append_assoc]

mutual
theorem read_printObj (st : St) : ∀ o : Obj Links, Typed o → readNodes st (printObj o) = sim st o
  | .mk k u n m l kids, h => by
    rw [Typed] at h
    obtain ⟨hu, hm, hl, hk⟩ := h
    rw [printObj, sim]
    by_cases hg : k = .group ∧ kids.isEmpty
    · rw [if_pos hg, if_pos hg]; rfl
    · rw [if_neg hg, if_neg hg]
      simp only [readNodes, List.append_nil]
      rw [readNode]
      simp only [attr_uuid, kindOf_nodeName, guid_convertToText u hu, attr_name,
        readMultipatch_print _ _ _ _ _ _ _ hm, List.append_assoc, readChildList_class, readChildList_child]
      rw [← List.append_assoc, readRaw_obj]
      cases kids with
      | nil => simp [readChildList_fixture, sims]
      | cons o os =>
        simp only [List.isEmpty_cons, Bool.not_false, if_true]
        rw [read_printObjs _ (o :: os) hk]
theorem read_printObjs (st : St) : ∀ os : List (Obj Links), TypedL os → readNodes st (printObjs os) = sims st os
  | [], _ => by rw [printObjs, sims, readNodes]
  | o :: os, h => by
    rw [TypedL] at h
    rw [printObjs, sims, readNodes_append, read_printObj st o h.1, read_printObjs _ os h.2]
end

/-- Writing and reading the layers. -/
def simLayers (st : St) : List (Layer Links) → St × List (Layer Raw)
  | [] => (st, [])
  | l :: ls =>
    let r := sims st l.kids
    let r' := simLayers r.1 ls
    (r'.1, { uuid := l.uuid, name := l.name, multipatch := l.multipatch.filter (· ∈ st.objs)
             info := rawOf none l.info, kids := r.2 } :: r'.2)

theorem read_printLayer (st : St) (l : Layer Links) (hu : l.uuid.length = 16)
    (hm : ∀ v, l.multipatch = some v → v.length = 16) (hk : TypedL l.kids) :
    readLayer st (printLayer l) = ((sims st l.kids).1,
      [{ uuid := l.uuid, name := l.name, multipatch := l.multipatch.filter (· ∈ st.objs)
         info := rawOf none l.info, kids := (sims st l.kids).2 }]) := by
  have hn : eqText (printLayer l).name "Layer".toList = true := layer_name
  rw [readLayer, if_pos hn, printLayer]
  simp only [attr_uuid, guid_convertToText _ hu, attr_name, readMultipatch_print _ _ _ _ _ _ _ hm, readRaw_layer,
    Xml.kids, readChildList_class]
  have : readChildList st (childListNode (!l.kids.isEmpty) (printObjs l.kids)) = sims st l.kids := by
    have h := readChildList_child st (!l.kids.isEmpty) (printObjs l.kids) []
    rw [List.append_nil] at h
    rw [h, read_printObjs _ _ hk]
    cases l.kids with
    | nil => simp [sims, readChildList]
    | cons o os => simp
  rw [this]

theorem read_printLayers (st : St) (ls : List (Layer Links))
    (h : ∀ l ∈ ls, l.uuid.length = 16 ∧ (∀ v, l.multipatch = some v → v.length = 16) ∧ LinksOk l.info ∧ TypedL l.kids) :
    readLayers st (ls.map printLayer) = simLayers st ls := by
  induction ls generalizing st with
  | nil => rfl
  | cons l ls ih =>
    obtain ⟨hu, hm, _, hk⟩ := h l (by simp)
    rw [List.map_cons, readLayers, simLayers, read_printLayer st l hu hm hk, ih _ (fun l' hl' => h l' (by simp [hl']))]
    rfl

theorem readAux_printAux (n : Text) (a : Aux) (h : a.uuid.length = 16) : readAux (printAux n a) = a := by
  rw [readAux, printAux, attr_uuid, attr_name]
  simp [guid_convertToText _ h]

theorem readAuxList_print (n m : Text) (as : List Aux) (h : ∀ a ∈ as, a.uuid.length = 16) :
    readAuxList m (as.map (printAux n)) = if eqText n m then as else [] := by
  induction as with
  | nil => simp [readAuxList]
  | cons a as ih =>
    have ih := ih (fun x hx => h x (by simp [hx]))
    have ha := readAux_printAux n a (h a (by simp))
    have hn : (printAux n a).name = n := rfl
    by_cases hh : eqText n m = true
    · rw [if_pos hh] at ih ⊢
      rw [readAuxList] at ih ⊢
      rw [List.map_cons, List.filter_cons_of_pos (by rw [hn]; exact hh), List.map_cons, ha, ih]
    · rw [if_neg hh] at ih ⊢
      rw [readAuxList] at ih ⊢
      rw [List.map_cons, List.filter_cons_of_neg (by rw [hn]; exact hh), ih]

theorem readAuxList_append (m : Text) (xs ys : List Xml) :
    readAuxList m (xs ++ ys) = readAuxList m xs ++ readAuxList m ys := by
  simp [readAuxList]

/-- The nodes of a written file. -/
def fileOf (layers aux : List Xml) : Xml :=
  .elem "GeneralSceneDescription".toList [] []
    [ .elem "UserData".toList [] [] [],
      .elem "Scene".toList [] [] [ .elem "Layers".toList [] [] layers, .elem "AUXData".toList [] [] aux ] ]

theorem fileOf_scene (a b : List Xml) : (fileOf a b).child? "Scene".toList =
    some (.elem "Scene".toList [] [] [ .elem "Layers".toList [] [] a, .elem "AUXData".toList [] [] b ]) := rfl

theorem scene_aux (a b : List Xml) : (Xml.elem "Scene".toList [] []
    [ .elem "Layers".toList [] [] a, .elem "AUXData".toList [] [] b ]).child? "AUXData".toList =
    some (.elem "AUXData".toList [] [] b) := rfl

theorem scene_layers (a b : List Xml) : (Xml.elem "Scene".toList [] []
    [ .elem "Layers".toList [] [] a, .elem "AUXData".toList [] [] b ]).child? "Layers".toList =
    some (.elem "Layers".toList [] [] a) := rfl

theorem withClasses_write (s : Scene) (cs : List Aux) : withClasses cs (writeXml s) =
    fileOf (s.layers.map printLayer)
      (s.positions.map (printAux "Position".toList) ++ cs.map (printAux "Class".toList)) := by
  simp [withClasses, writeXml, fileOf]

theorem readXml_fileOf (a b : List Xml) : readXml (fileOf a b) =
    { scene :=
        { layers := (readLayers {} a).2.map (mapLayer (resolve (readAuxList "Class".toList b)
            (readAuxList "Position".toList b) (readLayers {} a).1.focus))
          classes := readAuxList "Class".toList b
          positions := readAuxList "Position".toList b }
      dup := (readLayers {} a).1.dup } := by
  rw [readXml, fileOf_scene]
  dsimp only
  rw [scene_aux, scene_layers]
  rfl

/-- The whole way: writing a scene, adding class nodes, reading. -/
theorem read_write (s : Scene) (cs : List Aux) (h : TypedScene s) (hc : ∀ c ∈ cs, c.uuid.length = 16) :
    readXml (withClasses cs (writeXml s)) =
      { scene :=
          { layers := (simLayers {} s.layers).2.map (mapLayer (resolve cs s.positions (simLayers {} s.layers).1.focus))
            classes := cs, positions := s.positions }
        dup := (simLayers {} s.layers).1.dup } := by
  obtain ⟨hl, _, hp⟩ := h
  rw [withClasses_write, readXml_fileOf, readAuxList_append, readAuxList_append,
    readAuxList_print _ _ _ hc, readAuxList_print _ _ _ hp, readAuxList_print _ _ _ hc, readAuxList_print _ _ _ hp,
    read_printLayers _ _ hl, pos_class, class_pos, class_class, pos_pos]
  simp only [if_true, Bool.false_eq_true, if_false, List.nil_append, List.append_nil]

theorem withClasses_nil (s : Scene) : withClasses [] (writeXml s) = writeXml s := by
  simp [withClasses, writeXml]

end Verif.Scene
