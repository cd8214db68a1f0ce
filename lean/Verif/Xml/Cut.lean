import Verif.Xml.Doc

/-! What the parser makes of the beginning of a text: more text behind it changes nothing of an element that
is complete. -/

namespace Verif.Xml
open Spec

theorem isPrefixOf_ext {e s : Str} (h : e.length ≤ s.length) (q : Str) : e.isPrefixOf (s ++ q) = e.isPrefixOf s := by
  induction e generalizing s with
  | nil => simp
  | cons c e ih =>
    cases s with
    | nil => simp at h
    | cons d s =>
      simp only [List.cons_append, List.isPrefixOf]
      rw [ih (by simpa using h)]

theorem parseText_ext {e s a r : Str} (h : parseText e s = some (a, r)) (q : Str) :
    parseText e (s ++ q) = some (a, r ++ q) := by
  induction s generalizing a r with
  | nil => simp [parseText] at h
  | cons c s ih =>
    have hl : e.length ≤ (c :: s).length := by
      have := parseText_split h
      rw [this]; simp; omega
    rw [List.cons_append, parseText, ← List.cons_append, isPrefixOf_ext hl]
    rw [parseText] at h
    split at h
    · rename_i hp
      rw [if_pos hp]
      cases h
      rw [List.drop_append_of_le_length hl]
    · rename_i hp
      rw [if_neg hp]
      simp only [Option.map_eq_some_iff] at h
      obtain ⟨x, hx, he⟩ := h
      cases he
      rw [ih (a := x.1) (r := x.2) hx]
      rfl

theorem skipWs_ext {s : Str} (h : skipWs s ≠ []) (q : Str) : skipWs (s ++ q) = skipWs s ++ q := by
  induction s with
  | nil => simp [skipWs] at h
  | cons c s ih =>
    by_cases hc : isSpace c = true
    · have h1 : ∀ t, skipWs (c :: t) = skipWs t := by
        intro t
        exact skipWs_ws (w := [c]) (by simpa using hc) t
      rw [List.cons_append, h1, h1] at *
      exact ih h
    · rw [List.cons_append, skipWs_cons (by simpa using hc), skipWs_cons (by simpa using hc)]
      rfl

theorem dropWhile_ext {p : Char → Bool} {s : Str} (h : s.dropWhile p ≠ []) (q : Str) :
    (s ++ q).dropWhile p = s.dropWhile p ++ q ∧ (s ++ q).takeWhile p = s.takeWhile p := by
  induction s with
  | nil => simp at h
  | cons c s ih =>
    by_cases hc : p c = true
    · rw [List.dropWhile_cons] at h
      simp only [hc, if_true] at h
      have := ih h
      simp [hc, this]
    · simp [hc]

theorem parseName_ext {s n r : Str} (h : parseName s = some (n, r)) (hr : r ≠ []) (q : Str) :
    parseName (s ++ q) = some (n, r ++ q) := by
  cases s with
  | nil => simp [parseName] at h
  | cons c s =>
    rw [parseName] at h
    split at h
    · rename_i hc
      cases h
      have := dropWhile_ext hr q
      rw [List.cons_append, parseName, if_pos hc, this.1, this.2]
    · cases h

theorem parseAttr_ext {p n v r : Str} (h : parseAttr p = some (n, v, r)) (q : Str) :
    parseAttr (p ++ q) = some (n, v, r ++ q) := by
  unfold parseAttr at h ⊢
  simp only [Option.bind_eq_some_iff] at h
  obtain ⟨x, hx, h⟩ := h
  split at h
  · rename_i r1 e1
    have hne : x.2 ≠ [] := by intro h0; rw [h0] at e1; simp [skipWs] at e1
    rw [parseName_ext (n := x.1) (r := x.2) hx hne]
    simp only [Option.bind_some]
    rw [skipWs_ext (by rw [e1]; simp), e1]
    simp only [List.cons_append]
    split at h
    · rename_i c r2 e2
      rw [skipWs_ext (by rw [e2]; simp), e2]
      simp only [List.cons_append]
      split at h
      · rename_i hq
        rw [if_pos hq]
        simp only [Option.map_eq_some_iff] at h
        obtain ⟨y, hy, he⟩ := h
        cases he
        rw [parseText_ext (a := y.1) (r := y.2) hy]
        rfl
      · cases h
    · cases h
  · cases h

theorem parseAttrs_ext (n : Nat) : ∀ (p : Str) (cl : Closing) (acc : List (Str × Str)) (res : Closing)
    (as : List (Str × Str)) (r : Str), p.length ≤ n → parseAttrs cl acc p = some (res, as, r) → ∀ q,
    parseAttrs cl acc (p ++ q) = some (res, as, r ++ q) := by
  induction n with
  | zero =>
    intro p cl acc res as r hl h
    have : p = [] := List.length_eq_zero_iff.1 (by omega)
    subst this
    rw [parseAttrs_eq] at h
    simp [skipWs] at h
  | succ n ih =>
    intro p cl acc res as r hl h q
    rw [parseAttrs_eq] at h ⊢
    have h0 := skipWs_length p
    split at h
    · cases h
    · rename_i c t hs
      rw [skipWs_ext (by rw [hs]; simp), hs]
      rw [hs] at h0
      simp only [List.length_cons] at h0
      simp only [List.cons_append]
      split at h
      · rename_i hc
        rw [if_pos hc]
        split at h
        · cases h
        · rename_i m v rest ha
          have h1 := parseAttr_length ha
          simp only [List.length_cons] at h1
          rw [← List.cons_append, parseAttr_ext ha]
          simp only
          split at h
          · cases h
          · rename_i hn
            rw [if_neg hn]
            exact ih _ _ _ _ _ _ (by omega) h q
      · rename_i hc
        rw [if_neg hc]
        split at h
        · rename_i hg; rw [if_pos hg]; cases h; rfl
        · rename_i hg
          rw [if_neg hg]
          split at h
          · rename_i hh
            cases h
            cases t with
            | nil => simp at hh
            | cons y t => rw [if_pos ⟨hh.1, by simpa using hh.2⟩]; rfl
          · cases h

theorem parseTag_ext {p : Str} {cl n a r} (h : parseTag p = some (cl, n, a, r)) (q : Str) :
    parseTag (p ++ q) = some (cl, n, a, r ++ q) := by
  unfold parseTag at h ⊢
  simp only [Option.bind_eq_some_iff, Option.map_eq_some_iff] at h
  obtain ⟨x, hx, z, hz, he⟩ := h
  cases he
  have hs : skipWs p ≠ [] := by
    intro h0
    rw [h0] at hx
    simp [parseName] at hx
  rw [skipWs_ext hs]
  have hh : (skipWs p ++ q).head? = (skipWs p).head? := by
    cases hp : skipWs p with
    | nil => exact absurd hp hs
    | cons => rfl
  have hne : x.2 ≠ [] := by
    intro h0
    rw [h0, parseAttrs_eq] at hz
    simp [skipWs] at hz
  have hd : (if (skipWs p).head? = some '/' then (skipWs p ++ q).drop 1 else skipWs p ++ q) =
      (if (skipWs p).head? = some '/' then (skipWs p).drop 1 else skipWs p) ++ q := by
    split
    · cases hp : skipWs p with
      | nil => exact absurd hp hs
      | cons => rfl
    · rfl
  simp only [hh, hd]
  rw [parseName_ext (n := x.1) (r := x.2) hx hne]
  simp only [Option.bind_some]
  rw [parseAttrs_ext _ _ _ _ _ _ _ (Nat.le_refl _) hz]
  rfl

/-- A prefix test that does not depend on what is behind the first `>`. -/
theorem isPrefixOf_gt {e p : Str} (he : '>' ∉ e) (hp : '>' ∈ p) (q : Str) : e.isPrefixOf (p ++ q) = e.isPrefixOf p := by
  induction e generalizing p with
  | nil => simp
  | cons c e ih =>
    cases p with
    | nil => cases hp
    | cons d p =>
      simp only [List.mem_cons, not_or] at he hp
      simp only [List.cons_append, List.isPrefixOf]
      by_cases hcd : c = d
      · subst hcd
        rw [ih he.2 (hp.resolve_left he.1)]
      · rw [show (c == d) = false from beq_eq_false_iff_ne.2 hcd]; rfl

theorem identify_ext {p : Str} (hn : skipWs p ≠ []) (hp : '>' ∈ skipWs p ∨ (∀ t, skipWs p ≠ '<' :: t)) (q : Str) :
    identify (p ++ q) = match identify p with
      | .nothing => .nothing
      | .decl x => .decl (x ++ q)
      | .comment x => .comment (x ++ q)
      | .cdata x => .cdata (x ++ q)
      | .unknown x => .unknown (x ++ q)
      | .elem x => .elem (x ++ q)
      | .text x => .text (x ++ q) := by
  have key : ∀ e : Str, '>' ∉ e → e.head? = some '<' → e.isPrefixOf (skipWs p ++ q) = e.isPrefixOf (skipWs p) := by
    intro e he hh
    rcases hp with hp | hp
    · exact isPrefixOf_gt he hp q
    · cases e with
      | nil => cases hh
      | cons c e =>
        cases hh
        cases hs : skipWs p with
        | nil => exact absurd hs hn
        | cons d t =>
          have hd : ('<' == d) = false := by
            apply beq_eq_false_iff_ne.2
            rintro rfl
            exact hp t hs
          simp [List.isPrefixOf, hd]
  have drop : ∀ (e : Str), e.isPrefixOf (skipWs p) = true → (skipWs p ++ q).drop e.length = (skipWs p).drop e.length ++ q := by
    intro e he
    rw [List.isPrefixOf_iff_prefix] at he
    exact List.drop_append_of_le_length he.length_le
  unfold identify
  rw [skipWs_ext hn]
  simp only
  rw [key _ (by decide) (by decide), key _ (by decide) (by decide), key _ (by decide) (by decide),
    key _ (by decide) (by decide), key _ (by decide) (by decide)]
  rw [if_neg (by simp [hn]), if_neg hn]
  by_cases h1 : "<?".toList.isPrefixOf (skipWs p) = true
  · rw [if_pos h1, if_pos h1]; simp only; exact congrArg _ (drop _ h1)
  · rw [if_neg h1, if_neg h1]
    by_cases h2 : "<!--".toList.isPrefixOf (skipWs p) = true
    · rw [if_pos h2, if_pos h2]; simp only; exact congrArg _ (drop _ h2)
    · rw [if_neg h2, if_neg h2]
      by_cases h3 : "<![CDATA[".toList.isPrefixOf (skipWs p) = true
      · rw [if_pos h3, if_pos h3]; simp only; exact congrArg _ (drop _ h3)
      · rw [if_neg h3, if_neg h3]
        by_cases h4 : "<!".toList.isPrefixOf (skipWs p) = true
        · rw [if_pos h4, if_pos h4]; simp only; exact congrArg _ (drop _ h4)
        · rw [if_neg h4, if_neg h4]
          by_cases h5 : "<".toList.isPrefixOf (skipWs p) = true
          · rw [if_pos h5, if_pos h5]; simp only; exact congrArg _ (drop _ h5)
          · rw [if_neg h5, if_neg h5]

theorem mem_skipWs {c : Char} (hc : isSpace c = false) {s : Str} : c ∈ s ↔ c ∈ skipWs s := by
  constructor
  · intro h
    induction s with
    | nil => cases h
    | cons d s ih =>
      by_cases hd : isSpace d = true
      · rw [show skipWs (d :: s) = skipWs s from skipWs_ws (w := [d]) (by simpa using hd) s]
        rcases List.mem_cons.1 h with rfl | h
        · rw [hc] at hd; cases hd
        · exact ih h
      · rw [skipWs_cons (by simpa using hd)]; exact h
  · intro h
    exact (List.dropWhile_sublist _).subset h

theorem parseName_split {s n r : Str} (h : parseName s = some (n, r)) : s = n ++ r := by
  cases s with
  | nil => simp [parseName] at h
  | cons c s =>
    rw [parseName] at h
    split at h
    · cases h; simp
    · cases h

theorem parseAttr_mem {p n v r : Str} (h : parseAttr p = some (n, v, r)) : '>' ∈ r → '>' ∈ p := by
  intro hm
  unfold parseAttr at h
  simp only [Option.bind_eq_some_iff] at h
  obtain ⟨x, hx, h⟩ := h
  rw [parseName_split (n := x.1) (r := x.2) hx, List.mem_append]
  right
  rw [mem_skipWs (by decide)]
  split at h
  · rename_i r1 e1
    rw [e1]
    apply List.mem_cons_of_mem
    rw [mem_skipWs (by decide)]
    split at h
    · rename_i c r2 e2
      rw [e2]
      apply List.mem_cons_of_mem
      split at h
      · simp only [Option.map_eq_some_iff] at h
        obtain ⟨y, hy, he⟩ := h
        cases he
        rw [parseText_split (a := y.1) (r := y.2) hy]
        simp [hm]
      · cases h
    · cases h
  · cases h

theorem parseAttrs_mem (n : Nat) : ∀ (p : Str) (cl : Closing) (acc : List (Str × Str)) (y), p.length ≤ n →
    parseAttrs cl acc p = some y → '>' ∈ p := by
  induction n with
  | zero =>
    intro p cl acc y hl h
    have : p = [] := List.length_eq_zero_iff.1 (by omega)
    subst this
    rw [parseAttrs_eq] at h
    simp [skipWs] at h
  | succ n ih =>
    intro p cl acc y hl h
    rw [parseAttrs_eq] at h
    have h0 := skipWs_length p
    rw [mem_skipWs (by decide)]
    split at h
    · cases h
    · rename_i c r hs
      rw [hs] at h0 ⊢
      simp only [List.length_cons] at h0
      split at h
      · split at h
        · cases h
        · rename_i m v rest ha
          have h1 := parseAttr_length ha
          simp only [List.length_cons] at h1
          split at h
          · cases h
          · exact parseAttr_mem ha (ih _ _ _ _ (by omega) h)
      · split at h
        · rename_i hc; subst hc; exact List.mem_cons_self ..
        · split at h
          · rename_i hh
            cases r with
            | nil => simp at hh
            | cons d r => simp only [List.head?_cons, Option.some.injEq] at hh; simp [hh.2]
          · cases h

theorem parseTag_mem {p : Str} {y} (h : parseTag p = some y) : '>' ∈ p := by
  unfold parseTag at h
  simp only [Option.bind_eq_some_iff, Option.map_eq_some_iff] at h
  obtain ⟨x, hx, z, hz, rfl⟩ := h
  have h1 := parseAttrs_mem _ _ _ _ _ (Nat.le_refl _) hz
  have h2 : '>' ∈ (if (skipWs p).head? = some '/' then (skipWs p).drop 1 else skipWs p) := by
    rw [parseName_split (n := x.1) (r := x.2) hx]
    exact List.mem_append_right _ h1
  rw [mem_skipWs (by decide)]
  split at h2
  · exact List.mem_of_mem_drop h2
  · exact h2

/-- What `identify` finds is a part of the text. -/
theorem identify_mem (p : Str) {c : Char} : match identify p with
    | .nothing => skipWs p = []
    | .text q => q = p ∧ ∃ c t, skipWs p = c :: t ∧ c ≠ '<'
    | .elem q => c ∈ q → c ∈ skipWs p
    | .decl q => c ∈ q → c ∈ skipWs p
    | .comment q => c ∈ q → c ∈ skipWs p
    | .cdata q => c ∈ q → c ∈ skipWs p
    | .unknown q => c ∈ q → c ∈ skipWs p := by
  have hi := identify_length p
  unfold identify at hi ⊢
  simp only at hi ⊢
  by_cases h0 : skipWs p = []
  · rw [if_pos h0]; exact h0
  · rw [if_neg h0] at hi ⊢
    split at hi <;> rename_i h
    · split at h <;> (try split at h) <;> (try split at h) <;> (try split at h) <;> (try split at h) <;> cases h
    · rw [h]; exact hi
    all_goals
      rename_i q
      rw [h]
      simp only
      intro hm
      split at h
      · cases h <;> exact List.mem_of_mem_drop hm
      · split at h
        · cases h <;> exact List.mem_of_mem_drop hm
        · split at h
          · cases h <;> exact List.mem_of_mem_drop hm
          · split at h
            · cases h <;> exact List.mem_of_mem_drop hm
            · split at h
              · cases h <;> exact List.mem_of_mem_drop hm
              · cases h

/-- Nodes that are not elements, with more text behind. -/
theorem parseLeaf_ext {p : Str} {n : Node} {r : Str} (h : parseLeaf (identify p) = some (n, r)) (q : Str) :
    parseLeaf (identify (p ++ q)) = some (n, r ++ q) ∧ identify (p ++ q) ≠ .nothing ∧ ∀ x, identify (p ++ q) ≠ .elem x := by
  have hm := identify_mem p (c := '>')
  have hn : skipWs p ≠ [] := by
    intro h0
    have : identify p = .nothing := by unfold identify; simp [h0]
    rw [this] at h
    cases h
  unfold parseLeaf at h
  split at h
  case h_6 => cases h
  case h_5 x hx =>
    rw [hx] at hm
    simp only at hm
    obtain ⟨rfl, c, t, hs, hc⟩ := hm
    have hi := identify_ext hn (Or.inr (by intro t' h'; rw [hs] at h'; cases h'; exact hc rfl)) q
    rw [hx] at hi
    simp only [Option.bind_eq_some_iff] at h
    obtain ⟨y, hy, h⟩ := h
    split at h
    · cases h
    · rename_i hne
      cases h
      rw [hi]
      simp only at *
      refine ⟨?_, by simp, by simp⟩
      simp only [parseLeaf]
      rw [parseText_ext (a := y.1) (r := y.2) hy]
      simp only [Option.bind_some]
      rw [if_neg (by simp [hne])]
      rfl
  all_goals
    rename_i x hx
    rw [hx] at hm
    simp only at hm
    simp only [Option.map_eq_some_iff] at h
    obtain ⟨y, hy, he⟩ := h
    cases he
    have hsp := parseText_split (a := y.1) (r := y.2) hy
    have hg : '>' ∈ x := by rw [hsp]; simp
    have hi := identify_ext hn (Or.inl (hm hg)) q
    rw [hx] at hi
    rw [hi]
    refine ⟨?_, by simp, by simp⟩
    simp only [parseLeaf]
    rw [parseText_ext (a := y.1) (r := y.2) hy]
    rfl

theorem identify_elem_ext {p x : Str} (h : identify p = .elem x) {y} (ht : parseTag x = some y) (q : Str) :
    identify (p ++ q) = .elem (x ++ q) := by
  have hm := identify_mem p (c := '>')
  rw [h] at hm
  simp only at hm
  have hg := hm (parseTag_mem ht)
  have hn : skipWs p ≠ [] := by intro h0; rw [h0] at hg; cases hg
  rw [identify_ext hn (Or.inl hg) q, h]

/-- An element list that is complete stays as it is when more text follows. -/
theorem parseNodes_ext : ∀ (f : Nat) (isDoc : Bool) (d : Nat) (acc : List Node) (p : Str) (n k r),
    parseNodes f isDoc d acc p = some (.close n k r) → ∀ q, parseNodes f isDoc d acc (p ++ q) = some (.close n k (r ++ q)) := by
  intro f
  induction f with
  | zero => intro _ _ _ _ _ _ _ h; simp [parseNodes] at h
  | succ f ih =>
    intro isDoc d acc p n k r h q
    rw [parseNodes] at h ⊢
    split at h
    · cases h
    · rename_i x hx
      split at h
      · cases h
      · rename_i ht
        cases h
        rw [identify_elem_ext hx ht]
        simp only [parseTag_ext ht]
      · rename_i ht
        rw [identify_elem_ext hx ht]
        simp only [parseTag_ext ht]
        exact ih _ _ _ _ _ _ _ h q
      · rename_i ht
        rw [identify_elem_ext hx ht]
        simp only [parseTag_ext ht]
        split at h
        · cases h
        · rename_i h1
          rw [if_neg (by simp [h1])]
          split at h
          · cases h
          · rename_i h2
            rw [if_neg h2]
            split at h
            · cases h
            · rename_i m kids rest' hk
              rw [ih _ _ _ _ _ _ _ hk]
              simp only
              split at h
              · rename_i h3; rw [if_pos h3]; exact ih _ _ _ _ _ _ _ h q
              · cases h
            · cases h
    · split at h
      · cases h
      · rename_i m rest hl
        have he := parseLeaf_ext hl q
        split
        · rename_i hh; exact absurd hh he.2.1
        · rename_i hh; exact absurd hh (he.2.2 _)
        · rw [he.1]
          simp only
          split at h
          · cases h
          · rename_i h4
            rw [if_neg h4]
            exact ih _ _ _ _ _ _ _ h q

theorem viewList_kept_ne {d : Str} {l : List Node} (h : viewList l = []) : viewList (.decl d :: l) = [] := by
  simp [viewList, view, h]

/-- The document level on a text that is cut off inside of its root element. -/
theorem parse_cut {n : Str} {a : List (Str × Str)} {k : List Node} (hx : Valid (.elem n a k)) {e : Str}
    (he : Rend (.elem n a k) e) {P Q : Str} (hs : e = P ++ Q) (hq : Q ≠ []) (hp : P ≠ []) (acc : List Node) :
    Parses true 1 acc P .err := by
  have hv := hx
  unfold Valid at hx
  have ht : TagOk n a := ⟨hx.1, hx.2.1, hx.2.2.1⟩
  have hsplit : ∀ {tail : Str}, e = '<' :: tail → ∃ P', P = '<' :: P' ∧ tail = P' ++ Q := by
    intro tail h
    cases P with
    | nil => exact absurd rfl hp
    | cons c P' =>
      rw [hs, List.cons_append] at h
      cases h
      exact ⟨P', rfl, rfl⟩
  have hid : ∀ {P' r : Str}, tagText n a ++ r = P' ++ Q → P' ≠ [] → identify ('<' :: P') = .elem P' := by
    intro P' r h hne
    obtain ⟨c, t, hc, h1, h2⟩ := name_head hx.1
    cases P' with
    | nil => exact absurd rfl hne
    | cons d P' =>
      unfold tagText at h
      rw [hc, List.cons_append, List.cons_append, List.cons_append] at h
      injection h with h0 _
      subst h0
      exact identify_elem h1 h2 _
  have hnil : identify ['<'] = .elem [] := rfl
  have hid' : ∀ {P' r : Str}, tagText n a ++ r = P' ++ Q → identify ('<' :: P') = .elem P' := by
    intro P' r h
    by_cases h0 : P' = []
    · subst h0; exact hnil
    · exact hid h h0
  unfold Rend at he
  rcases he with ⟨rfl, h⟩ | ⟨hk, b, hb, h⟩
  · obtain ⟨P', rfl, h1⟩ := hsplit h
    have hi := hid' h1
    cases hc : parseTag P' with
    | none => exact ⟨1, by rw [parseNodes, hi]; simp only [hc]⟩
    | some y =>
      obtain ⟨cl, m, as, r⟩ := y
      have h2 := parseTag_ext hc Q
      have h3 := parseTag_text ht ['/', '>'] [] .closed (Or.inr ⟨rfl, rfl⟩)
      rw [List.append_nil, h1, h2] at h3
      simp only [Option.some.injEq, Prod.mk.injEq, List.append_eq_nil_iff] at h3
      exact absurd h3.2.2.2.2 hq
  · obtain ⟨P', rfl, h1⟩ := hsplit h
    have hi := hid' h1
    cases hc : parseTag P' with
    | none => exact ⟨1, by rw [parseNodes, hi]; simp only [hc]⟩
    | some y =>
      obtain ⟨cl, m, as, r⟩ := y
      have h2 := parseTag_ext hc Q
      have h3 := parseTag_text ht ['>'] (b ++ '<' :: '/' :: (n ++ ['>'])) .opened (Or.inl ⟨rfl, rfl⟩)
      rw [show ['>'] ++ (b ++ '<' :: '/' :: (n ++ ['>'])) = '>' :: (b ++ '<' :: '/' :: (n ++ ['>'])) from rfl, h1, h2] at h3
      simp only [Option.some.injEq, Prod.mk.injEq] at h3
      obtain ⟨rfl, rfl, rfl, h4⟩ := h3
      have h5 := parse_kids k hx.2.2.2.2 hx.2.2.2.1 false 2 (by decide) [] false b hb m hx.1 []
      rw [← h4] at h5
      obtain ⟨o, ho, _⟩ := parseNodes_total (r.length + 1) false 2 [] r (by omega)
      refine parses_open_err hi hc (Or.inr (Or.inr ⟨o, ⟨_, ho⟩, ?_⟩))
      rintro k' rest' rfl
      have h6 := parseNodes_ext _ _ _ _ _ _ _ _ ho Q
      have h7 : Parses false 2 [] (r ++ Q) (.close m k' (rest' ++ Q)) := ⟨_, h6⟩
      have h8 := h5.run
      rw [h7.run] at h8
      split at h8
      · simp only [Option.some.injEq, Out.close.injEq, List.append_eq_nil_iff] at h8
        exact absurd h8.2.2.2 hq
      · cases h8

theorem parseText_none_of_prefix {e s a : Str} (h : parseText e (s ++ e) = some (s, [])) (hsa : ∃ q, q ≠ [] ∧ s ++ e = a ++ q) :
    parseText e a = none := by
  obtain ⟨q, hq, hs⟩ := hsa
  cases hp : parseText e a with
  | none => rfl
  | some y =>
    obtain ⟨x, r⟩ := y
    have h1 := parseText_ext hp q
    rw [← hs, h] at h1
    simp only [Option.some.injEq, Prod.mk.injEq] at h1
    have := h1.2.symm
    rw [List.append_eq_nil_iff] at this
    exact absurd this.2 hq

theorem append_split {a b p q : Str} (h : a ++ b = p ++ q) :
    (∃ t, t ≠ [] ∧ a = p ++ t ∧ q = t ++ b) ∨ (∃ t, p = a ++ t ∧ b = t ++ q) := by
  rw [List.append_eq_append_iff] at h
  rcases h with ⟨t, h1, h2⟩ | ⟨t, h1, h2⟩
  · exact Or.inr ⟨t, h1, h2⟩
  · by_cases ht : t = []
    · subst ht
      exact Or.inr ⟨[], by simpa using h1.symm, by simpa using h2.symm⟩
    · exact Or.inl ⟨t, ht, h1, h2⟩

theorem cut_none {n : Str} {a : List (Str × Str)} {k : List Node} (hx : Valid (.elem n a k)) {P Q : Str}
    (hs : writeBuffer ⟨false, [.elem n a k]⟩ = P ++ Q) (hq : Q ≠ []) : readBuffer P = none := by
  obtain ⟨e, h1, he⟩ := write_doc hx
  have hnul : '\x00' ∉ declText ++ '\n' :: e := by
    have := rend_nul _ hx e he
    rw [List.mem_append]
    rintro (hm | hm)
    · revert hm; decide
    · simp [this] at hm
  rw [h1] at hs
  have hPn : '\x00' ∉ P := fun h => hnul (by rw [hs]; exact List.mem_append_left _ h)
  rcases append_split hs with ⟨t, ht, hd, _⟩ | ⟨t, rfl, ht⟩
  · -- inside of the declaration
    have : parseDoc P = none := by
      match P, hd with
      | [], _ => rfl
      | [c], hd =>
        have : c = '<' := by simpa [declText] using (congrArg List.head? hd).symm
        subst this
        rfl
      | c :: c' :: P', hd =>
        rw [declText, show "<?".toList ++ header ++ "?>".toList = '<' :: '?' :: (header ++ "?>".toList) from rfl,
          List.cons_append, List.cons_append] at hd
        injection hd with e1 hd
        injection hd with e2 hd
        subst e1; subst e2
        have hn := parseText_none_of_prefix (e := "?>".toList) (s := header) (a := P') rfl ⟨t, ht, hd⟩
        have hp : Parses true 1 [] ('<' :: '?' :: P') .err := by
          refine parses_leaf_err ?_ (by intro h; cases h) (by intro q h; cases h)
          have : identify ('<' :: '?' :: P') = .decl P' := rfl
          rw [this]
          simp only [parseLeaf]
          rw [hn]
          rfl
        unfold parseDoc
        have e1 : skipWs ('<' :: '?' :: P') = '<' :: '?' :: P' := rfl
        have e2 : bomText.isPrefixOf ('<' :: '?' :: P') = false := rfl
        simp only [takeWhile_nul hPn, e1, e2, Bool.false_eq_true, if_false]
        rw [hp.run]
        simp
    rw [readBuffer, this]
    rfl
  · have hn2 : '\x00' ∉ t := fun h => hPn (List.mem_append_right _ h)
    cases t with
    | nil =>
      rw [readBuffer, parseDoc_decl hn2]
      rfl
    | cons c t =>
      rw [List.cons_append] at ht
      injection ht with hc ht
      subst hc
      by_cases h0 : t = []
      · subst h0
        rw [readBuffer, parseDoc_decl hn2]
        rfl
      · have hp := parse_cut hx he ht hq h0 [.decl header]
        obtain ⟨u, hu, _⟩ := rend_elem_head he
        obtain ⟨t', rfl⟩ : ∃ t', t = '<' :: t' := by
          cases t with
          | nil => exact absurd rfl h0
          | cons d t =>
            rw [hu, List.cons_append] at ht
            injection ht with hd _
            subst hd
            exact ⟨t, rfl⟩
        have hp' := parses_skip (w := ['\n']) (by decide) hp
        rw [readBuffer, parseDoc_decl hn2]
        have := hp'.run
        rw [show ['\n'] ++ '<' :: t' = '\n' :: '<' :: t' from rfl] at this
        rw [this]
        rfl

end Verif.Xml
