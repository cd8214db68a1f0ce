import Verif.Xml.Doc
import Verif.Scene.Props

/-!
The trees that the users of the API build, written and read back; the file of a scene.
-/

namespace Verif.Xml

open Spec

theorem newlines_clean {s : Str} (h : '\r' ∉ s) : newlines s = s := by
  induction s with
  | nil => rfl
  | cons c s ih =>
    simp only [List.mem_cons, not_or] at h
    have ih := ih h.2
    by_cases hc : c = '\n'
    · subst hc
      rw [newlines_lf, if_neg, ih]
      intro hh
      cases s with
      | nil => cases hh
      | cons d s =>
        simp only [List.head?_cons, Option.some.injEq] at hh
        exact h.2 (by simp [hh])
    · rw [newlines_other (fun e => h.1 e.symm) hc, ih]

theorem clean_attrs {a : List (Str × Str)} (h : ∀ x ∈ a, Name x.1 ∧ Clean x.2) :
    a.map (fun x => (x.1, newlines x.2)) = a := by
  conv => rhs; rw [← List.map_id a]
  apply List.map_congr_left
  intro x hx
  rw [newlines_clean (h x hx).2.1]; rfl

theorem adjacent_ofXmls : ∀ k : List Scene.Xml, ¬ Adjacent (ofXmls k)
  | [] => by simp [ofXmls, Adjacent]
  | .elem n a t k :: r => by
    rw [ofXmls, ofXml, Adjacent]
    · exact adjacent_ofXmls r
    · intro _ _ _ h; cases h

theorem adjacent_text (t : Str) (k : List Scene.Xml) : ¬ Adjacent (.text t :: ofXmls k) := by
  cases k with
  | nil => simp [ofXmls, Adjacent]
  | cons x r =>
    cases x with
    | elem n a t' k =>
      rw [Adjacent]
      · exact adjacent_ofXmls (.elem n a t' k :: r)
      · intro _ _ _ _ h; simp [ofXmls, ofXml] at h

mutual
theorem ofXml_valid : ∀ x : Scene.Xml, Plain x → Valid (ofXml x)
  | .elem n a t k, h => by
    rw [Plain] at h
    obtain ⟨h1, h2, h3, h4, -, h6⟩ := h
    have hk := ofXmls_valid k h6
    rw [ofXml, Valid]
    refine ⟨h1, fun x hx => ⟨(h2 x hx).1, (h2 x hx).2.2⟩, h3, ?_, ?_⟩
    · split
      · exact adjacent_ofXmls k
      · exact adjacent_text t k
    · split
      · exact hk
      · exact ⟨h4.2, hk⟩
theorem ofXmls_valid : ∀ k : List Scene.Xml, Plains k → Valids (ofXmls k)
  | [], _ => by rw [ofXmls]; trivial
  | x :: r, h => by
    rw [Plains] at h
    rw [ofXmls, Valids]
    exact ⟨ofXml_valid x h.1, ofXmls_valid r h.2⟩
end

theorem ofXmls_isEmpty (k : List Scene.Xml) : (ofXmls k).isEmpty = k.isEmpty := by
  cases k <;> simp [ofXmls]

mutual
theorem height_ofXml : ∀ x : Scene.Xml, height (ofXml x) = levels x
  | .elem n a t k => by
    rw [ofXml, levels, height]
    by_cases ht : t = []
    · simp [ht, ofXmls_isEmpty, heights_ofXmls k]
    · simp [ht, heights, height, heights_ofXmls k]
theorem heights_ofXmls : ∀ k : List Scene.Xml, heights (ofXmls k) = levelsAll k
  | [] => by rw [ofXmls, levelsAll, heights]
  | x :: r => by rw [ofXmls, levelsAll, heights, height_ofXml x, heights_ofXmls r]
end

theorem viewList_append (a b : List Node) : viewList (a ++ b) = viewList a ++ viewList b := by
  induction a with
  | nil => simp [viewList]
  | cons x a ih => simp [viewList, ih]

theorem getText_ofXmls (k : List Scene.Xml) : getText (keptAll (ofXmls k)) = [] := by
  cases k with
  | nil => simp [ofXmls, keptAll, getText]
  | cons x r => cases x; simp [ofXmls, ofXml, keptAll, kept, getText]

mutual
theorem view_kept : ∀ x : Scene.Xml, Plain x → viewList (kept (ofXml x)) = [x]
  | .elem n a t k, h => by
    rw [Plain] at h
    obtain ⟨h1, h2, h3, h4, h5, h6⟩ := h
    have hk := view_keptAll k h6
    rw [ofXml, kept, viewList, viewList, List.append_nil, view, clean_attrs h2]
    by_cases ht : t = []
    · rw [if_pos ht, List.nil_append, hk, getText_ofXmls, ht]
    · have hb : ¬ Blank t := h5.resolve_left ht
      rw [if_neg ht, List.singleton_append, keptAll, kept, if_neg hb, List.singleton_append, getText, viewList, view,
        List.nil_append, hk, newlines_clean h4.1]
      intro _ _ _ h; cases h
theorem view_keptAll : ∀ k : List Scene.Xml, Plains k → viewList (keptAll (ofXmls k)) = k
  | [], _ => by rw [ofXmls, keptAll, viewList]
  | x :: r, h => by
    rw [Plains] at h
    rw [ofXmls, keptAll, viewList_append, view_kept x h.1, view_keptAll r h.2]; rfl
end

theorem read_tree (x : Scene.Xml) (h : Plain x) :
    readBuffer (writeXmlText x) = if levels x ≤ 98 then some x else none := by
  have hv := ofXml_valid x h
  have hh := height_ofXml x
  have hk := view_kept x h
  cases x with
  | elem n a t k =>
    unfold readBuffer writeXmlText
    rw [ofXml] at hv hh hk ⊢
    rw [read_write hv, hh]
    split
    · rw [Option.bind_some, viewList, view, List.nil_append, hk]
      · rfl
      · intro _ _ _ h; cases h
    · rfl

/-! ## The file of a scene -/

theorem uuidText_clean (u : Scene.Uuid) : Clean (Uuid.convertToText u) ∧ ¬ Blank (Uuid.convertToText u) := by
  have hb : ∀ b : Byte, ∀ c ∈ Uuid.getPieceAsText b, c ≠ '\r' ∧ c ≠ '\x00' ∧ ¬ Space c := by decide +kernel
  have key : ∀ c ∈ Uuid.convertToText u, c ≠ '\r' ∧ c ≠ '\x00' ∧ ¬ Space c := by
    intro c hc
    unfold Uuid.convertToText Uuid.toText at hc
    rw [List.mem_flatten] at hc
    obtain ⟨l, hl, hc⟩ := hc
    have hd : '-' ≠ '\r' ∧ '-' ≠ '\x00' ∧ ¬ Space '-' := by decide
    simp only [Bool.false_eq_true, if_false, List.mem_cons, List.not_mem_nil, or_false] at hl
    rcases hl with rfl | rfl | rfl | rfl | rfl | rfl | rfl | rfl | rfl | rfl | rfl | rfl | rfl | rfl | rfl | rfl | rfl | rfl | rfl | rfl | rfl | rfl
    all_goals first
      | exact hb _ _ hc
      | (cases hc; done)
      | (rw [List.mem_singleton] at hc; subst hc; exact hd)
  have hl : (Uuid.convertToText u).length = 36 := Uuid.toText_length_false u
  refine ⟨⟨fun h => (key _ h).1 rfl, fun h => (key _ h).2.1 rfl⟩, fun h => ?_⟩
  cases ht : Uuid.convertToText u with
  | nil => rw [ht] at hl; cases hl
  | cons c r =>
    have hm : c ∈ Uuid.convertToText u := by rw [ht]; simp
    exact (key c hm).2.2 (h c hm)

theorem plains_append {a b : List Scene.Xml} (ha : Plains a) (hb : Plains b) : Plains (a ++ b) := by
  induction a with
  | nil => exact hb
  | cons x a ih => rw [Plains] at ha; exact ⟨ha.1, ih ha.2⟩

theorem plains_map {α : Type} (f : α → Scene.Xml) (l : List α) (h : ∀ x ∈ l, Plain (f x)) : Plains (l.map f) := by
  induction l with
  | nil => trivial
  | cons x l ih => exact ⟨h x (by simp), ih (fun y hy => h y (by simp [hy]))⟩

theorem levelsAll_append (a b : List Scene.Xml) : levelsAll (a ++ b) = max (levelsAll a) (levelsAll b) := by
  induction a with
  | nil => simp [levelsAll]
  | cons x a ih => rw [List.cons_append, levelsAll, levelsAll, ih]; omega

theorem levelsAll_map {α : Type} (f : α → Scene.Xml) (l : List α) (m : Nat) (h : ∀ x ∈ l, levels (f x) ≤ m) :
    levelsAll (l.map f) ≤ m := by
  induction l with
  | nil => simp [levelsAll]
  | cons x l ih =>
    have h1 := h x (by simp)
    have h2 := ih (fun y hy => h y (by simp [hy]))
    rw [List.map_cons, levelsAll]; omega

theorem nameOk {n : Str} (c : Char) (r : Str) (h : n = c :: r) (hs : isNameStart c = true)
    (hr : r.all isNameChar = true) : Name n := by
  subst h
  refine ⟨⟨c, r, rfl, (isNameStart_iff c).1 hs⟩, ?_⟩
  intro d hd
  rw [← isNameChar_iff]
  rcases List.mem_cons.1 hd with rfl | hd
  · simp [isNameChar, hs]
  · exact List.all_eq_true.1 hr d hd

theorem name_kind (k : Scene.Kind) : Name k.nodeName := by
  cases k <;> exact nameOk _ _ rfl (by decide) (by decide)

theorem attrs_plain (u : Scene.Uuid) (n : Str) (m : Option Scene.Uuid) (hn : Clean n) :
    (∀ x ∈ Scene.attrsOf u n m, Name x.1 ∧ Clean x.2) ∧ ((Scene.attrsOf u n m).map (·.1)).Nodup := by
  have h1 : Name "uuid".toList := nameOk _ _ rfl (by decide) (by decide)
  have h2 : Name "name".toList := nameOk _ _ rfl (by decide) (by decide)
  have h3 : Name "multipatch".toList := nameOk _ _ rfl (by decide) (by decide)
  unfold Scene.attrsOf
  constructor
  · intro x hx
    rw [List.mem_append, List.mem_append] at hx
    rcases hx with (hx | hx) | hx
    · simp only [List.mem_singleton] at hx
      subst hx; exact ⟨h1, (uuidText_clean u).1⟩
    · split at hx
      · cases hx
      · simp only [List.mem_singleton] at hx
        subst hx; exact ⟨h2, hn⟩
    · split at hx
      · cases hx
      · simp only [List.mem_singleton] at hx
        subst hx; exact ⟨h3, (uuidText_clean _).1⟩
  · cases m <;> (split <;> simp)

theorem clean_nil : Clean [] := by decide

theorem plain_text {n : Str} (h : Name n) (u : Scene.Uuid) : Plain (Scene.textNode n (Uuid.convertToText u)) := by
  rw [Scene.textNode, Plain]
  exact ⟨h, by simp, by simp, (uuidText_clean u).1, Or.inr (uuidText_clean u).2, trivial⟩

theorem plain_class (l : Scene.Links) : Plains (Scene.classNodes l) := by
  unfold Scene.classNodes
  split
  · trivial
  · exact ⟨plain_text (nameOk _ _ rfl (by decide) (by decide)) _, trivial⟩

theorem plain_fixture (k : Scene.Kind) (l : Scene.Links) : Plains (Scene.fixtureNodes k l) := by
  have h1 : Name "Focus".toList := nameOk _ _ rfl (by decide) (by decide)
  have h2 : Name "Position".toList := nameOk _ _ rfl (by decide) (by decide)
  unfold Scene.fixtureNodes
  split
  · apply plains_append
    · split
      · trivial
      · exact ⟨plain_text h1 _, trivial⟩
    · split
      · trivial
      · exact ⟨plain_text h2 _, trivial⟩
  · trivial

theorem plain_childList (b : Bool) {k : List Scene.Xml} (h : Plains k) : Plains (Scene.childListNode b k) := by
  unfold Scene.childListNode
  split
  · refine ⟨?_, trivial⟩
    rw [Plain]
    exact ⟨nameOk _ _ rfl (by decide) (by decide), by simp, by simp, clean_nil, Or.inl rfl, h⟩
  · trivial

mutual
theorem printObj_plain : ∀ o : Scene.Obj Scene.Links, CleanTree (Scene.Spec.tree o) → Plains (Scene.printObj o)
  | .mk k u n m l kids, h => by
    rw [Scene.Spec.tree, CleanTree] at h
    rw [Scene.printObj]
    split
    · trivial
    · refine ⟨?_, trivial⟩
      rw [Plain]
      obtain ⟨ha, hd⟩ := attrs_plain u n m h.1
      exact ⟨name_kind k, ha, hd, clean_nil, Or.inl rfl, plains_append (plains_append (plain_class l)
        (plain_childList _ (printObjs_plain kids h.2))) (plain_fixture k l)⟩
theorem printObjs_plain : ∀ os : List (Scene.Obj Scene.Links), CleanTrees (Scene.Spec.trees os) → Plains (Scene.printObjs os)
  | [], _ => by rw [Scene.printObjs]; trivial
  | o :: os, h => by
    rw [Scene.Spec.trees, CleanTrees] at h
    rw [Scene.printObjs]
    exact plains_append (printObj_plain o h.1) (printObjs_plain os h.2)
end

theorem writeXml_plain (s : Scene.Scene) (h : CleanScene s) : Plain (Scene.writeXml s) := by
  have e : ∀ {n : Str} {k : List Scene.Xml}, Name n → Plains k → Plain (.elem n [] [] k) := by
    intro n k hn hk
    rw [Plain]
    exact ⟨hn, by simp, by simp, clean_nil, Or.inl rfl, hk⟩
  rw [Scene.writeXml]
  refine e (nameOk _ _ rfl (by decide) (by decide)) ⟨e (nameOk _ _ rfl (by decide) (by decide)) trivial,
    e (nameOk _ _ rfl (by decide) (by decide)) ⟨e (nameOk _ _ rfl (by decide) (by decide)) (plains_map _ _ ?_),
      e (nameOk _ _ rfl (by decide) (by decide)) (plains_map _ _ ?_), trivial⟩, trivial⟩
  · intro l hl
    obtain ⟨h1, h2⟩ := h.1 l hl
    rw [Scene.printLayer, Plain]
    obtain ⟨ha, hd⟩ := attrs_plain l.uuid l.name l.multipatch h1
    exact ⟨nameOk _ _ rfl (by decide) (by decide), ha, hd, clean_nil, Or.inl rfl,
      plains_append (plain_class _) (plain_childList _ (printObjs_plain _ h2))⟩
  · intro p hp
    rw [Scene.printAux, Plain]
    obtain ⟨ha, hd⟩ := attrs_plain p.uuid p.name none (h.2 p hp)
    exact ⟨nameOk _ _ rfl (by decide) (by decide), ha, hd, clean_nil, Or.inl rfl, trivial⟩

theorem levels_class (l : Scene.Links) : levelsAll (Scene.classNodes l) ≤ 1 := by
  unfold Scene.classNodes
  split
  · simp [levelsAll]
  · rw [levelsAll, levelsAll, Scene.textNode, levels, levelsAll]; split <;> omega

theorem levels_fixture (k : Scene.Kind) (l : Scene.Links) : levelsAll (Scene.fixtureNodes k l) ≤ 1 := by
  have e : ∀ n t, levelsAll [Scene.textNode n t] ≤ 1 := by
    intro n t
    rw [levelsAll, levelsAll, Scene.textNode, levels, levelsAll]; split <;> omega
  unfold Scene.fixtureNodes
  split
  · rw [levelsAll_append]
    have : ∀ a b, a ≤ 1 → b ≤ 1 → max a b ≤ 1 := by omega
    apply this
    · split
      · simp [levelsAll]
      · exact e _ _
    · split
      · simp [levelsAll]
      · exact e _ _
  · simp [levelsAll]

theorem levels_childList (b : Bool) (k : List Scene.Xml) : levelsAll (Scene.childListNode b k) ≤ 1 + levelsAll k := by
  unfold Scene.childListNode
  split
  · rw [levelsAll, levelsAll, levels]; split <;> omega
  · simp [levelsAll]

mutual
theorem levels_printObj : ∀ o : Scene.Obj Scene.Links, levelsAll (Scene.printObj o) ≤ 2 * deep (Scene.Spec.tree o)
  | .mk k u n m l kids => by
    have h := levels_printObjs kids
    have h1 := levels_class l
    have h2 := levels_fixture k l
    have h3 := levels_childList (!kids.isEmpty) (Scene.printObjs kids)
    rw [Scene.Spec.tree, deep, Scene.printObj]
    split
    · simp [levelsAll]
    · rw [levelsAll, levelsAll, levels, levelsAll_append, levelsAll_append]
      split <;> omega
theorem levels_printObjs : ∀ os : List (Scene.Obj Scene.Links), levelsAll (Scene.printObjs os) ≤ 2 * deeps (Scene.Spec.trees os)
  | [] => by rw [Scene.printObjs]; simp [levelsAll]
  | o :: os => by
    have h1 := levels_printObj o
    have h2 := levels_printObjs os
    rw [Scene.printObjs, Scene.Spec.trees, deeps, levelsAll_append]
    omega
end

theorem levels_writeXml (s : Scene.Scene) (d : Nat) (h : ∀ l ∈ s.layers, deeps (Scene.Spec.trees l.kids) ≤ d) :
    levels (Scene.writeXml s) ≤ 5 + 2 * d := by
  have e : ∀ (n : Str) (k : List Scene.Xml), levels (.elem n [] [] k) ≤ 1 + levelsAll k := by
    intro n k
    rw [levels]; split <;> omega
  have h1 : levelsAll (s.layers.map Scene.printLayer) ≤ 2 + 2 * d := by
    apply levelsAll_map
    intro l hl
    have a := h l hl
    have b := levels_printObjs l.kids
    have c := levels_class l.info
    have f := levels_childList (!l.kids.isEmpty) (Scene.printObjs l.kids)
    rw [Scene.printLayer, levels, levelsAll_append]
    split <;> omega
  have h2 : levelsAll (s.positions.map (Scene.printAux "Position".toList)) ≤ 0 := by
    apply levelsAll_map
    intro p _
    simp [Scene.printAux, levels]
  have g1 := e "Layers".toList (s.layers.map Scene.printLayer)
  have g2 := e "AUXData".toList (s.positions.map (Scene.printAux "Position".toList))
  have g3 := e "Scene".toList [.elem "Layers".toList [] [] (s.layers.map Scene.printLayer),
    .elem "AUXData".toList [] [] (s.positions.map (Scene.printAux "Position".toList))]
  have g4 := e "UserData".toList []
  rw [Scene.writeXml]
  have g5 := e "GeneralSceneDescription".toList [ .elem "UserData".toList [] [] [],
      .elem "Scene".toList [] []
        [ .elem "Layers".toList [] [] (s.layers.map Scene.printLayer),
          .elem "AUXData".toList [] [] (s.positions.map (Scene.printAux "Position".toList)) ] ]
  simp only [levelsAll] at g3 g4 g5
  omega

end Verif.Xml
