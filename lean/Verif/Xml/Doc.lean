import Verif.Xml.Print

/-! Whole documents: written and read back, and cut off. -/

namespace Verif.Xml
open Spec

/-! ## No NUL inside of what is written -/

theorem name_nul {n : Str} (h : Name n) : '\x00' ∉ n := by
  intro hm
  have := (isNameChar_iff _).2 (h.2 _ hm)
  revert this; decide

theorem esc_nul (b : Bool) {s : Str} (h : '\x00' ∉ s) : '\x00' ∉ esc b s := by
  unfold esc
  rw [List.mem_flatMap]
  rintro ⟨c, hc, hm⟩
  rcases escChar_cases b c with ⟨he, _⟩ | ⟨e, hme, _, he⟩
  · rw [he, List.mem_singleton] at hm
    subst hm
    exact h hc
  · rw [he] at hm
    have hall : ∀ e ∈ entities, '\x00' ∉ ('&' :: e.1 ++ [';']) := by decide
    exact hall e hme hm

theorem tag_nul {n : Str} {a : List (Str × Str)} (h : TagOk n a) : '\x00' ∉ tagText n a := by
  unfold tagText
  rw [List.mem_append, List.mem_flatMap]
  rintro (hm | ⟨x, hx, hm⟩)
  · exact name_nul h.1 hm
  · have hx' := h.2.1 x hx
    unfold attrText at hm
    simp only [List.mem_append, List.mem_cons] at hm
    have h1 := name_nul hx'.1
    have h2 := esc_nul false hx'.2
    rcases hm with (((hm | hm) | hm) | hm) | hm
    · revert hm; decide
    · exact h1 hm
    · revert hm; decide
    · exact h2 hm
    · revert hm; decide

theorem space_nul {w : Str} (h : ∀ c ∈ w, isSpace c = true) : '\x00' ∉ w := by
  intro hm
  have := h _ hm
  revert this; decide

mutual
theorem rend_nul (x : Node) (hx : Valid x) (e : Str) (he : Rend x e) : '\x00' ∉ e := by
  cases x with
  | elem n a k =>
    unfold Valid at hx
    have ht := tag_nul (n := n) (a := a) ⟨hx.1, hx.2.1, hx.2.2.1⟩
    have hn := name_nul hx.1
    unfold Rend at he
    rcases he with ⟨rfl, rfl⟩ | ⟨_, b, hb, rfl⟩
    · simp [ht]
    · have := rendKids_nul k hx.2.2.2.2 false b hb
      simp [ht, hn, this]
  | text t =>
    unfold Rend at he
    unfold Valid at hx
    subst he
    exact esc_nul _ hx
  | cdata v => simp [Valid] at hx
  | comment v => simp [Valid] at hx
  | decl v => simp [Valid] at hx
  | unknown v => simp [Valid] at hx

theorem rendKids_nul (k : List Node) (hk : Valids k) (prev : Bool) (s : Str) (hs : RendKids prev k s) : '\x00' ∉ s := by
  cases k with
  | nil => unfold RendKids at hs; exact space_nul hs.1
  | cons x r =>
    unfold RendKids at hs
    unfold Valids at hk
    obtain ⟨w, e, t, rfl, hw, _, he, ht⟩ := hs
    have h1 := space_nul hw
    have h2 := rend_nul x hk.1 e he
    have h3 := rendKids_nul r hk.2 _ t ht
    simp [h1, h2, h3]
end

/-! ## Write and read -/

/-- The declaration at the top of the file. -/
def declText : Str := "<?".toList ++ header ++ "?>".toList

theorem write_doc {n : Str} {a : List (Str × Str)} {k : List Node} (hx : Valid (.elem n a k)) :
    ∃ e, writeBuffer ⟨false, [.elem n a k]⟩ = declText ++ ('\n' :: e) ∧ Rend (.elem n a k) e := by
  unfold writeBuffer
  simp only [Bool.false_eq_true, if_false, printNodes]
  have h0 : pushMarkup {} ("<?".toList ++ header ++ "?>".toList) = { first := false, out := declText } := rfl
  rw [h0]
  have hs : printNodes { first := false, out := declText } [.elem n a k] =
      printNode { first := false, out := declText } (.elem n a k) := rfl
  obtain ⟨b, h1, h2, h3, h4, h5⟩ := print_nodes k (by unfold Valid at hx; exact hx.2.2.2.2)
    (openElement { first := false, out := declText } n a) false rfl (by simp [openElement, prepare, sealTag])
    (by intro h; cases h)
  have e1 : openElement { first := false, out := declText } n a = { justOpened := true, first := false, depth := 1, textDepth := none, out := declText ++ ('\n' :: '<' :: tagText n a) } := by
    simp [openElement, prepare, sealTag, tagText, spaces]
  rw [e1] at h1 h2 h3 h4 h5
  rw [printNode, e1]
  cases k with
  | nil =>
    refine ⟨'<' :: (tagText n a ++ ['/', '>']), ?_, Or.inl ⟨rfl, rfl⟩⟩
    have : (closeElement (printNodes { justOpened := true, first := false, depth := 1, textDepth := none, out := declText ++ ('\n' :: '<' :: tagText n a) } []) n).out
        = (declText ++ '\n' :: ('<' :: (tagText n a ++ ['/', '>']))) ++ ['\n'] := by
      simp [printNodes, closeElement]
    rw [this, List.dropLast_concat]
  | cons y ys =>
    generalize hp : printNodes _ (y :: ys) = p at h1 h2 h3 h4 h5 ⊢
    simp only [List.isEmpty_cons, Bool.and_false, reduceCtorEq, ne_eq, not_false_eq_true, and_self, if_true] at h1 h2 h4 h5
    refine ⟨'<' :: (tagText n a ++ '>' :: (b ++ ((if p.textDepth = none then '\n' :: spaces 0 else []) ++
        '<' :: '/' :: (n ++ ['>'])))), ?_, ?_⟩
    · have : (closeElement p n).out = (declText ++ '\n' :: ('<' :: (tagText n a ++ '>' :: (b ++ ((if p.textDepth = none then '\n' :: spaces 0 else []) ++
        '<' :: '/' :: (n ++ ['>'])))))) ++ ['\n'] := by
        simp [closeElement, h1, h2, h4]
      rw [this, List.dropLast_concat]
    · refine Or.inr ⟨by simp, _, h5 (if p.textDepth = none then '\n' :: spaces 0 else []) ?_ ?_, by simp⟩
      · split
        · exact indent_space _
        · intro c hc; cases hc
      · intro h; rw [if_neg h]

theorem getStrLoop_plain (orig s : Str) (h : ∀ c ∈ s, c ≠ '\r' ∧ c ≠ '\n') : ∀ out,
    getStrLoop false orig s out = out ++ s := by
  induction s with
  | nil => intro out; simp [getStrLoop]
  | cons c s ih =>
    intro out
    have hc := h c (List.mem_cons_self ..)
    rw [getStrLoop, if_neg hc.1, if_neg hc.2, if_neg (by simp), ih (fun x hx => h x (List.mem_cons_of_mem _ hx))]
    simp

theorem getStr_header : getStr false header = header := by
  unfold getStr
  rw [getStrLoop_plain _ _ (by decide)]
  decide

theorem parseLeaf_decl (r : Str) : parseLeaf (identify (declText ++ r)) = some (.decl header, r) := by
  have h1 : identify (declText ++ r) = .decl (header ++ ("?>".toList ++ r)) := rfl
  have h2 : parseText "?>".toList (header ++ ("?>".toList ++ r)) = some (header, r) := rfl
  rw [h1]
  simp only [parseLeaf, h2, Option.map_some, getStr_header]

theorem takeWhile_nul {s : Str} (h : '\x00' ∉ s) : s.takeWhile (fun c => c ≠ '\x00') = s := by
  have h2 : ∀ c ∈ s, decide (c ≠ '\x00') = true := by
    intro c hc
    simp only [ne_eq, decide_eq_true_eq]
    rintro rfl
    exact h hc
  have h3 := List.takeWhile_append_of_pos h2 (l₂ := [])
  simpa using h3

/-- A document that starts with the declaration. -/
theorem parseDoc_decl {r : Str} (h : '\x00' ∉ r) : parseDoc (declText ++ r) =
    match parseNodes (r.length + 1) true 1 [.decl header] r with
    | some (.eof nodes) => some ⟨false, nodes⟩
    | some (.close _ nodes _) => some ⟨false, nodes⟩
    | _ => none := by
  obtain ⟨o, ho, _⟩ := parseNodes_total (r.length + 1) true 1 [.decl header] r (by omega)
  have h1 : Parses true 1 [] (declText ++ r) o :=
    parses_leaf (parseLeaf_decl r) rfl ⟨_, ho⟩
  have h2 := h1.run
  have hc : (declText ++ r).takeWhile (fun c => c ≠ '\x00') = declText ++ r := by
    apply takeWhile_nul
    rw [List.mem_append]
    rintro (hm | hm)
    · revert hm; decide
    · exact h hm
  have hs : skipWs (declText ++ r) = declText ++ r := rfl
  have hb : bomText.isPrefixOf (declText ++ r) = false := rfl
  unfold parseDoc
  simp only [hc, hs, hb, Bool.false_eq_true, if_false]
  rw [h2, ho, if_neg (by simp [declText])]
  cases o <;> rfl

theorem read_write {n : Str} {a : List (Str × Str)} {k : List Node} (hx : Valid (.elem n a k)) :
    parseDoc (writeBuffer ⟨false, [.elem n a k]⟩) =
      if height (.elem n a k) ≤ 98 then some ⟨false, .decl header :: kept (.elem n a k)⟩ else none := by
  obtain ⟨e, h1, he⟩ := write_doc hx
  rw [h1, parseDoc_decl (by have := rend_nul _ hx e he; simp [this])]
  obtain ⟨u, hu, _⟩ := rend_elem_head he
  have h2 := parse_elem _ hx rfl true 1 (by decide) [.decl header] e he []
  simp only [List.append_nil] at h2
  by_cases hh : height (.elem n a k) ≤ 98
  · have h3 := h2.1 (by unfold maxDepth; omega) _ (parses_eof rfl)
    have h4 : Parses true 1 [.decl header] ('\n' :: e) (.eof ([.decl header] ++ kept (.elem n a k))) := by
      rw [hu] at h3 ⊢
      exact parses_skip (w := ['\n']) (by decide) h3
    rw [h4.run, if_pos hh]
    rfl
  · have h3 := h2.2 (by unfold maxDepth; omega)
    have h4 : Parses true 1 [.decl header] ('\n' :: e) .err := by
      rw [hu] at h3 ⊢
      exact parses_skip (w := ['\n']) (by decide) h3
    rw [h4.run, if_neg hh]

end Verif.Xml
