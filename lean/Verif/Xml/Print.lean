import Verif.Xml.Round

/-! The text that the printer writes, and the parser on it. -/

namespace Verif.Xml
open Spec

/-- A text node. -/
def isText : Node → Bool
  | .text _ => true
  | _ => false

mutual
/-- `s` is the text of an element or text node, with any white space between its tags. -/
def Rend : Node → Str → Prop
  | .elem n a k, s =>
    (k = [] ∧ s = '<' :: (tagText n a ++ ['/', '>'])) ∨
    (k ≠ [] ∧ ∃ b, RendKids false k b ∧ s = '<' :: (tagText n a ++ '>' :: (b ++ '<' :: '/' :: (n ++ ['>']))))
  | .text t, s => s = esc true t
  | _, _ => False

/-- `s` is the text of the nodes in front of a closing tag; there is no white space next to texts.
`prev` = the node before is a text. -/
def RendKids (prev : Bool) : List Node → Str → Prop
  | [], s => (∀ c ∈ s, isSpace c = true) ∧ (prev = true → s = [])
  | x :: r, s => ∃ w e t, s = w ++ (e ++ t) ∧ (∀ c ∈ w, isSpace c = true) ∧ (prev = true ∨ isText x = true → w = []) ∧
      Rend x e ∧ RendKids (isText x) r t
end

/-! ## The printer writes such a text -/

theorem spaces_space (d : Nat) : ∀ c ∈ spaces d, isSpace c = true := by
  intro c hc
  rw [spaces, List.mem_replicate] at hc
  rw [hc.2]; decide

theorem indent_space (d : Nat) : ∀ c ∈ '\n' :: spaces d, isSpace c = true := by
  intro c hc
  rcases List.mem_cons.1 hc with rfl | h
  · decide
  · exact spaces_space d c h

/-- The `>` of a start tag that is still open. -/
def sealText (s : Printer) : Str := if s.justOpened then ['>'] else []

/-- The white space that `prepare` writes. -/
def prepWs (s : Printer) : Str := if s.textDepth = none then '\n' :: spaces s.depth else []

theorem prepare_eq {s : Printer} (hf : s.first = false) :
    prepare s = { s with justOpened := false, out := s.out ++ sealText s ++ prepWs s } := by
  obtain ⟨jo, fi, de, td, out⟩ := s
  simp only at hf
  subst hf
  unfold prepare sealTag sealText prepWs
  cases jo <;> simp

mutual
theorem print_node (x : Node) (hx : Valid x) (s : Printer) (hf : s.first = false) (hd : isText x = true → s.depth ≠ 0) :
    ∃ w e, (printNode s x).out = s.out ++ sealText s ++ (w ++ e) ++ (if s.depth = 0 then ['\n'] else []) ∧
      (∀ c ∈ w, isSpace c = true) ∧ (s.textDepth ≠ none ∨ isText x = true → w = []) ∧ Rend x e ∧
      (printNode s x).depth = s.depth ∧ (printNode s x).first = false ∧ (printNode s x).justOpened = false ∧
      (isText x = true → (printNode s x).textDepth ≠ none) := by
  cases x with
  | text t =>
    have hd := hd rfl
    refine ⟨[], esc true t, ?_⟩
    obtain ⟨jo, fi, de, td, out⟩ := s
    simp only at hf
    have hd : de ≠ 0 := hd
    subst hf
    unfold printNode pushText sealTag sealText
    cases jo <;> simp [hd, Rend, isText]
  | elem n a k =>
    have hk : Valids k := by
      have := hx; unfold Valid at this; exact this.2.2.2.2
    have e1 : openElement s n a = { justOpened := true, first := false, depth := s.depth + 1, textDepth := s.textDepth, out := s.out ++ sealText s ++ prepWs s ++ '<' :: tagText n a } := by
      unfold openElement
      rw [prepare_eq hf]
      simp [hf, tagText]
    obtain ⟨b, h1, h2, h3, h4, h5⟩ := print_nodes k hk (openElement s n a) false (by rw [e1]) (by rw [e1]; simp)
      (by intro h; cases h)
    have hw : ∀ c ∈ prepWs s, isSpace c = true := by
      unfold prepWs; split
      · exact indent_space _
      · intro c hc; cases hc
    have hw0 : s.textDepth ≠ none ∨ isText (.elem n a k) = true → prepWs s = [] := by
      rintro (h | h)
      · unfold prepWs; rw [if_neg h]
      · cases h
    rw [e1] at h1 h2 h3 h4 h5
    simp only at h1 h2 h3 h4 h5
    rw [printNode, e1]
    cases k with
    | nil =>
      refine ⟨prepWs s, '<' :: (tagText n a ++ ['/', '>']), ?_, hw, hw0, Or.inl ⟨rfl, rfl⟩, ?_⟩
      · simp [printNodes, closeElement]
      · simp [printNodes, closeElement, isText]
    | cons y ys =>
      generalize hp : printNodes _ (y :: ys) = p at h1 h2 h3 h4 h5 ⊢
      simp only [List.isEmpty_cons, Bool.and_false, if_true, reduceCtorEq, ne_eq, not_false_eq_true, and_self] at h1 h4 h5
      refine ⟨prepWs s, '<' :: (tagText n a ++ '>' :: (b ++ ((if p.textDepth = none then '\n' :: spaces s.depth else []) ++
        '<' :: '/' :: (n ++ ['>'])))), ?_, hw, hw0, ?_, ?_⟩
      · simp [closeElement, h1, h2, h4]
      · refine Or.inr ⟨by simp, _, h5 (if p.textDepth = none then '\n' :: spaces s.depth else []) ?_ ?_, by simp⟩
        · split
          · exact indent_space _
          · intro c hc; cases hc
        · intro h; rw [if_neg h]
      · refine ⟨?_, h3, rfl, by simp [isText]⟩
        simp [closeElement, h2]
  | cdata v => simp [Valid] at hx
  | comment v => simp [Valid] at hx
  | decl v => simp [Valid] at hx
  | unknown v => simp [Valid] at hx

theorem print_nodes (k : List Node) (hk : Valids k) (s : Printer) (prev : Bool) (hf : s.first = false) (hd : s.depth ≠ 0)
    (hp : prev = true → s.textDepth ≠ none) :
    ∃ b, (printNodes s k).out = s.out ++ (if s.justOpened = true ∧ k ≠ [] then ['>'] else []) ++ b ∧
      (printNodes s k).depth = s.depth ∧ (printNodes s k).first = false ∧
      (printNodes s k).justOpened = (s.justOpened && k.isEmpty) ∧
      ∀ wc : Str, (∀ c ∈ wc, isSpace c = true) → ((printNodes s k).textDepth ≠ none → wc = []) → RendKids prev k (b ++ wc) := by
  cases k with
  | nil =>
    refine ⟨[], by simp [printNodes], rfl, hf, by simp [printNodes], ?_⟩
    intro wc h1 h2
    simp only [RendKids, List.nil_append]
    exact ⟨h1, fun h => h2 (hp h)⟩
  | cons x r =>
    unfold Valids at hk
    obtain ⟨w, e, h1, h2, h3, h4, h5, h6, h7, h8⟩ := print_node x hk.1 s hf (fun _ => hd)
    obtain ⟨b, g1, g2, g3, g4, g5⟩ := print_nodes r hk.2 (printNode s x) (isText x) h6 (by rw [h5]; exact hd) h8
    refine ⟨w ++ (e ++ b), ?_, ?_, ?_, ?_, ?_⟩
    · rw [printNodes, g1, h1, h7]
      simp [hd, sealText]
    · rw [printNodes, g2, h5]
    · rw [printNodes, g3]
    · rw [printNodes, g4, h7]; simp
    · intro wc hw1 hw2
      rw [printNodes] at hw2
      refine ⟨w, e, b ++ wc, by simp, h2, ?_, h4, g5 wc hw1 hw2⟩
      rintro (h | h)
      · exact h3 (Or.inl (hp h))
      · exact h3 (Or.inr h)
end

/-! ## The parser reads such a text -/

theorem esc_blank {t : Str} (h : Blank t) : esc true t = t ∧ ∀ c ∈ esc true t, isSpace c = true := by
  have h1 : esc true t = t := by
    unfold esc
    induction t with
    | nil => rfl
    | cons c t ih =>
      rw [List.flatMap_cons, ih (fun x hx => h x (List.mem_cons_of_mem _ hx))]
      rcases escChar_cases true c with ⟨he, _⟩ | ⟨e, hm, hc, _⟩
      · rw [he]; rfl
      · exfalso
        have hs := (isSpace_iff c).2 (h c (List.mem_cons_self ..))
        have hall : ∀ e ∈ entities, isSpace e.2 = false := by decide
        rw [← hc, hall e hm] at hs
        cases hs
  rw [h1]
  exact ⟨rfl, fun c hc => (isSpace_iff c).2 (h c hc)⟩

theorem esc_not_blank {t : Str} (h : ¬ Blank t) : ∃ c ∈ esc true t, isSpace c = false := by
  unfold Blank at h
  have : ∃ c ∈ t, ¬ Space c := by
    apply Classical.byContradiction
    intro hn
    apply h
    intro c hc
    apply Classical.byContradiction
    intro hs
    exact hn ⟨c, hc, hs⟩
  obtain ⟨c, hc, hs⟩ := this
  have hs : isSpace c = false := by
    cases hh : isSpace c with
    | false => rfl
    | true => exact absurd ((isSpace_iff c).1 hh) hs
  rcases escChar_cases true c with ⟨he, _⟩ | ⟨e, hm, _, he⟩
  · exact ⟨c, List.mem_flatMap.2 ⟨c, hc, by rw [he]; simp⟩, hs⟩
  · exact ⟨'&', List.mem_flatMap.2 ⟨c, hc, by rw [he]; simp⟩, by decide⟩

theorem rend_elem_head {n a k e} (h : Rend (.elem n a k) e) : ∃ u, e = '<' :: u ∧ u ≠ [] := by
  unfold Rend at h
  rcases h with ⟨_, rfl⟩ | ⟨_, b, _, rfl⟩
  · exact ⟨_, rfl, by simp⟩
  · exact ⟨_, rfl, by simp⟩

theorem rendKids_after_text {v : Str} {r : List Node} {t : Str} (h : RendKids true r t) (hv : Valids r)
    (ha : ¬ Adjacent (.text v :: r)) (z : Str) (hz : z ≠ []) : ∃ u, t ++ '<' :: z = '<' :: u ∧ u ≠ [] := by
  cases r with
  | nil =>
    unfold RendKids at h
    rw [h.2 rfl]
    exact ⟨z, rfl, hz⟩
  | cons x r =>
    unfold RendKids at h
    obtain ⟨w, e, t', rfl, _, hw, he, _⟩ := h
    rw [hw (Or.inl rfl)]
    unfold Valids at hv
    cases x with
    | elem n a k =>
      obtain ⟨u, rfl, hu⟩ := rend_elem_head he
      exact ⟨u ++ t' ++ '<' :: z, by simp, by simp⟩
    | text v' => exact absurd trivial ha
    | cdata v => simp [Valid] at hv
    | comment v => simp [Valid] at hv
    | decl v => simp [Valid] at hv
    | unknown v => simp [Valid] at hv

theorem name_head {n : Str} (h : Name n) : ∃ c r, n = c :: r ∧ c ≠ '?' ∧ c ≠ '!' := by
  obtain ⟨c, r, rfl, hc, _⟩ := name_pos h
  refine ⟨c, r, rfl, ?_, ?_⟩ <;> rintro rfl <;> revert hc <;> decide

theorem identify_tag {n : Str} {a : List (Str × Str)} (h : Name n) (r : Str) :
    identify ('<' :: (tagText n a ++ r)) = .elem (tagText n a ++ r) := by
  obtain ⟨c, t, rfl, h1, h2⟩ := name_head h
  exact identify_elem h1 h2 _

mutual
theorem parse_elem (x : Node) (hx : Valid x) (hnt : isText x = false) (isDoc : Bool) (d : Nat) (hd : d < maxDepth)
    (acc : List Node) (e : Str) (he : Rend x e) (rest : Str) :
    (d + height x < maxDepth → ∀ r, Parses isDoc d (acc ++ kept x) rest r → Parses isDoc d acc (e ++ rest) r) ∧
    (¬ d + height x < maxDepth → Parses isDoc d acc (e ++ rest) .err) := by
  cases x with
  | elem n a k =>
    unfold Valid at hx
    have ht : TagOk n a := ⟨hx.1, hx.2.1, hx.2.2.1⟩
    unfold Rend at he
    rcases he with ⟨rfl, rfl⟩ | ⟨hk, b, hb, rfl⟩
    · refine ⟨?_, ?_⟩
      · intro _ r h
        have h1 := parseTag_text ht ['/', '>'] rest .closed (Or.inr ⟨rfl, rfl⟩)
        have h2 : '<' :: (tagText n a ++ ['/', '>']) ++ rest = '<' :: (tagText n a ++ (['/', '>'] ++ rest)) := by simp
        rw [h2]
        refine parses_closed (identify_tag hx.1 _) h1 ?_
        simpa [kept, keptAll, attrsBack] using h
      · intro h; simp [height] at h; omega
    · have hke : k.isEmpty = false := by cases k with | nil => exact absurd rfl hk | cons _ _ => rfl
      have hh : height (.elem n a k) = 1 + heights k := by rw [height, if_neg (by rw [hke]; decide)]
      have h1 := parseTag_text ht ['>'] (b ++ '<' :: '/' :: (n ++ '>' :: rest)) .opened (Or.inl ⟨rfl, rfl⟩)
      have h2 : '<' :: (tagText n a ++ '>' :: (b ++ '<' :: '/' :: (n ++ ['>']))) ++ rest =
          '<' :: (tagText n a ++ (['>'] ++ (b ++ '<' :: '/' :: (n ++ '>' :: rest)))) := by simp
      rw [h2]
      by_cases hmax : d + 1 = maxDepth
      · refine ⟨fun h => ?_, fun _ => parses_open_err (identify_tag hx.1 _) h1 (Or.inr (Or.inl hmax))⟩
        rw [hh] at h
        omega
      · have h3 := parse_kids k hx.2.2.2.2 hx.2.2.2.1 false (d + 1) (by omega) [] false b hb n hx.1 rest
        refine ⟨fun h r hr => ?_, fun h => ?_⟩
        · rw [hh] at h
          rw [if_pos (by omega)] at h3
          refine parses_open (identify_tag hx.1 _) h1 (by simp) hmax h3 ?_
          simpa [kept, attrsBack] using hr
        · rw [hh] at h
          rw [if_neg (by omega)] at h3
          exact parses_open_err (identify_tag hx.1 _) h1 (Or.inr (Or.inr ⟨_, h3, by intro k r hh; cases hh⟩))
  | text t => cases hnt
  | cdata v => simp [Valid] at hx
  | comment v => simp [Valid] at hx
  | decl v => simp [Valid] at hx
  | unknown v => simp [Valid] at hx

theorem parse_kids (k : List Node) (hk : Valids k) (ha : ¬ Adjacent k) (isDoc : Bool) (d : Nat) (hd : d < maxDepth)
    (acc : List Node) (prev : Bool) (s : Str) (hs : RendKids prev k s) (n : Str) (hn : Name n) (rest : Str) :
    Parses isDoc d acc (s ++ '<' :: '/' :: (n ++ '>' :: rest))
      (if d + heights k < maxDepth then .close n (acc ++ keptAll k) rest else .err) := by
  cases k with
  | nil =>
    unfold RendKids at hs
    rw [if_pos (by rw [heights]; omega)]
    refine parses_skip hs.1 ?_
    have h1 := parses_close (isDoc := isDoc) (d := d) (acc := acc) (identify_elem (c := '/') (by decide) (by decide) (n ++ '>' :: rest))
      (parseTag_close hn rest)
    simpa [keptAll] using h1
  | cons x r =>
    unfold RendKids at hs
    obtain ⟨w, e, t, rfl, hw, hw0, he, ht⟩ := hs
    have hk' := hk
    unfold Valids at hk'
    have har : ¬ Adjacent r := by
      intro h
      apply ha
      unfold Adjacent
      split
      · trivial
      · rename_i hh; cases hh; exact h
      · rename_i hh; cases hh
    have ih := parse_kids r hk'.2 har isDoc d hd (acc ++ kept x) (isText x) t ht n hn rest
    have hh : heights (x :: r) = max (height x) (heights r) := by rw [heights]
    have e1 : (w ++ (e ++ t)) ++ '<' :: '/' :: (n ++ '>' :: rest) = w ++ (e ++ (t ++ '<' :: '/' :: (n ++ '>' :: rest))) := by
      simp
    have ek : acc ++ keptAll (x :: r) = acc ++ kept x ++ keptAll r := by rw [keptAll]; simp
    rw [e1, hh, ek]
    cases hxt : isText x with
    | false =>
      have hx := parse_elem x hk'.1 hxt isDoc d hd acc e he (t ++ '<' :: '/' :: (n ++ '>' :: rest))
      have hlt : ∃ u, e = '<' :: u := by
        cases x with
        | elem m a k => obtain ⟨u, hu, _⟩ := rend_elem_head he; exact ⟨u, hu⟩
        | text v => cases hxt
        | cdata v => simp [Valid] at hk'
        | comment v => simp [Valid] at hk'
        | decl v => simp [Valid] at hk'
        | unknown v => simp [Valid] at hk'
      obtain ⟨u, rfl⟩ := hlt
      rw [List.cons_append] at hx ⊢
      refine parses_skip hw ?_
      by_cases h1 : d + height x < maxDepth
      · refine hx.1 h1 _ ?_
        have : (d + max (height x) (heights r) < maxDepth) ↔ d + heights r < maxDepth := by omega
        simp only [this]
        exact ih
      · rw [if_neg (by omega)]
        exact hx.2 h1
    | true =>
      cases x with
      | text v =>
        rw [hw0 (Or.inr rfl), List.nil_append]
        have hv : '\x00' ∉ v := by have := hk'.1; unfold Valid at this; exact this
        have he' : e = esc true v := by unfold Rend at he; exact he
        subst he'
        have hm : (d + max (height (.text v)) (heights r) < maxDepth) ↔ d + heights r < maxDepth := by
          simp only [height]; omega
        simp only [hm]
        obtain ⟨u, hu, hune⟩ := rendKids_after_text ht hk'.2 ha ('/' :: (n ++ '>' :: rest)) (by simp)
        by_cases hb : Blank v
        · have h1 := esc_blank hb
          rw [kept, if_pos hb, List.append_nil] at ih ⊢
          rw [hu] at ih ⊢
          exact parses_skip h1.2 ih
        · rw [kept, if_neg hb] at ih ⊢
          rw [hu] at ih ⊢
          have hid := identify_text (esc_no (b := true) (Or.inl rfl)) (esc_not_blank hb) ('<' :: u)
          refine parses_leaf (n := .text (newlines v)) (rest := '<' :: u) ?_ rfl ih
          rw [hid]
          simp only [parseLeaf]
          have := parseText_single (esc_no (b := true) (s := v) (Or.inl rfl)) u
          rw [show "<".toList = ['<'] from rfl, this]
          simp only [Option.bind_some]
          rw [if_neg hune, getStr_esc true hv]
      | elem m a k => cases hxt
      | cdata v => cases hxt
      | comment v => cases hxt
      | decl v => cases hxt
      | unknown v => cases hxt
end

end Verif.Xml
