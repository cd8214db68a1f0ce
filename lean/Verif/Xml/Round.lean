import Verif.Xml.Lemmas

/-! The parser on the text of the printer. -/

namespace Verif.Xml
open Spec

/-! ## Tags -/

theorem parseAttr_text {a : Str × Str} (hn : Name a.1) (hv : '\x00' ∉ a.2) (r : Str) :
    parseAttr (a.1 ++ '=' :: '"' :: (esc false a.2 ++ '"' :: r)) = some (a.1, newlines a.2, r) := by
  unfold parseAttr
  rw [parseName_app hn not_nameChar.1]
  simp only [Option.bind_some]
  rw [skipWs_cons (by decide)]
  simp only
  rw [skipWs_cons (by decide)]
  simp only [true_or, if_true]
  rw [parseText_single (esc_no (Or.inr ⟨rfl, rfl⟩))]
  simp only [Option.map_some, getStr_esc false hv]

/-- The attributes as they are read back. -/
def attrsBack (a : List (Str × Str)) : List (Str × Str) := a.map (fun x => (x.1, newlines x.2))

theorem parseAttrs_eq (cl : Closing) (acc : List (Str × Str)) (p : Str) : parseAttrs cl acc p =
    match skipWs p with
    | [] => none
    | c :: r =>
      if isNameStart c then
        match parseAttr (c :: r) with
        | none => none
        | some (n, v, rest) =>
          if acc.any (fun a => a.1 == n) then none else parseAttrs cl (acc ++ [(n, v)]) rest
      else if c = '>' then some (cl, acc, r)
      else if c = '/' ∧ r.head? = some '>' then some (.closed, acc, r.drop 1)
      else none := by
  rw [parseAttrs]
  split
  · rename_i h; rw [h]
  · rename_i c r h
    rw [h]
    simp only
    split
    · split
      · rename_i h; rw [h]
      · rename_i h; rw [h]
    · rfl

theorem parseAttrs_text (cl : Closing) (e : Str) (res : Closing) (r : Str)
    (he : ∀ acc, parseAttrs cl acc (e ++ r) = some (res, acc, r)) (attrs : List (Str × Str)) :
    ∀ acc : List (Str × Str), (∀ x ∈ attrs, Name x.1 ∧ '\x00' ∉ x.2) →
    (acc.map (·.1) ++ attrs.map (·.1)).Nodup →
    parseAttrs cl acc (attrs.flatMap attrText ++ (e ++ r)) = some (res, acc ++ attrsBack attrs, r) := by
  induction attrs with
  | nil => intro acc _ _; simp [he, attrsBack]
  | cons a t ih =>
    intro acc hv hd
    have ha := hv a (List.mem_cons_self ..)
    rw [List.flatMap_cons]
    have e1 : attrText a ++ t.flatMap attrText ++ (e ++ r) =
        ' ' :: (a.1 ++ '=' :: '"' :: (esc false a.2 ++ '"' :: (t.flatMap attrText ++ (e ++ r)))) := by
      simp [attrText]
    rw [e1, parseAttrs_eq]
    obtain ⟨c, n, hn, hc, _⟩ := name_pos ha.1
    have e2 : skipWs (' ' :: (a.1 ++ '=' :: '"' :: (esc false a.2 ++ '"' :: (t.flatMap attrText ++ (e ++ r))))) =
        a.1 ++ '=' :: '"' :: (esc false a.2 ++ '"' :: (t.flatMap attrText ++ (e ++ r))) := by
      rw [show (' ' :: (a.1 ++ '=' :: '"' :: (esc false a.2 ++ '"' :: (t.flatMap attrText ++ (e ++ r))))) =
        [' '] ++ (a.1 ++ '=' :: '"' :: (esc false a.2 ++ '"' :: (t.flatMap attrText ++ (e ++ r)))) from rfl,
        skipWs_ws (by decide), hn, List.cons_append, skipWs_cons (nameStart_not_space hc)]
    have e3 := parseAttr_text ha.1 ha.2 (t.flatMap attrText ++ (e ++ r))
    rw [e2]
    rw [hn, List.cons_append] at e3 ⊢
    simp only
    rw [if_pos hc, e3]
    simp only
    rw [← hn]
    have hnd : acc.any (fun x => x.1 == a.1) = false := by
      rw [List.any_eq_false]
      intro x hx hh
      simp only [beq_iff_eq] at hh
      rw [List.nodup_append] at hd
      exact hd.2.2 x.1 (List.mem_map_of_mem hx) a.1 (by simp) hh
    rw [if_neg (by rw [hnd]; decide), ih (acc ++ [(a.1, newlines a.2)]) (fun x hx => hv x (List.mem_cons_of_mem _ hx))]
    · simp [attrsBack]
    · simpa using hd

theorem parseAttrs_gt (cl : Closing) (acc : List (Str × Str)) (r : Str) :
    parseAttrs cl acc (['>'] ++ r) = some (cl, acc, r) := by
  rw [parseAttrs_eq, show ['>'] ++ r = '>' :: r from rfl, skipWs_cons (by decide)]
  simp only
  rw [if_neg (by decide), if_pos (by trivial)]

theorem parseAttrs_slash (cl : Closing) (acc : List (Str × Str)) (r : Str) :
    parseAttrs cl acc (['/', '>'] ++ r) = some (.closed, acc, r) := by
  rw [parseAttrs_eq, show ['/', '>'] ++ r = '/' :: '>' :: r from rfl, skipWs_cons (by decide)]
  simp only
  rw [if_neg (by decide), if_neg (by decide), if_pos ⟨by trivial, rfl⟩]
  rfl

/-- The text of a start tag without `<` and without its end. -/
def tagText (n : Str) (a : List (Str × Str)) : Str := n ++ a.flatMap attrText

/-- Conditions on a start tag. -/
def TagOk (n : Str) (a : List (Str × Str)) : Prop :=
  Name n ∧ (∀ x ∈ a, Name x.1 ∧ '\x00' ∉ x.2) ∧ (a.map (·.1)).Nodup

theorem name_end (a : List (Str × Str)) (e r : Str) (he : e = ['>'] ∨ e = ['/', '>']) :
    ∃ c t, a.flatMap attrText ++ (e ++ r) = c :: t ∧ isNameChar c = false := by
  cases a with
  | nil =>
    rcases he with rfl | rfl
    · exact ⟨'>', r, rfl, by decide⟩
    · exact ⟨'/', '>' :: r, rfl, by decide⟩
  | cons x t =>
    exact ⟨' ', _, rfl, by decide⟩

theorem parseTag_text {n : Str} {a : List (Str × Str)} (h : TagOk n a) (e r : Str) (res : Closing)
    (he : (e = ['>'] ∧ res = .opened) ∨ (e = ['/', '>'] ∧ res = .closed)) :
    parseTag (tagText n a ++ (e ++ r)) = some (res, n, attrsBack a, r) := by
  obtain ⟨hn, ha, hd⟩ := h
  obtain ⟨c, t, hc, hs, _⟩ := name_pos hn
  have h1 : skipWs (tagText n a ++ (e ++ r)) = tagText n a ++ (e ++ r) := by
    unfold tagText
    rw [hc, List.cons_append, List.cons_append, skipWs_cons (nameStart_not_space hs)]
  have h2 : (tagText n a ++ (e ++ r)).head? ≠ some '/' := by
    unfold tagText
    rw [hc, List.cons_append, List.cons_append, List.head?_cons]
    intro hh
    cases hh
    revert hs; decide
  obtain ⟨d, u, hu, hdn⟩ := name_end a e r (he.imp And.left And.left)
  have h3 : parseName (tagText n a ++ (e ++ r)) = some (n, a.flatMap attrText ++ (e ++ r)) := by
    unfold tagText
    rw [List.append_assoc, hu, parseName_app hn hdn]
  have h4 : parseAttrs .opened [] (a.flatMap attrText ++ (e ++ r)) = some (res, attrsBack a, r) := by
    have := parseAttrs_text .opened e res r
      (by rcases he with ⟨rfl, rfl⟩ | ⟨rfl, rfl⟩
          · intro acc; exact parseAttrs_gt ..
          · intro acc; exact parseAttrs_slash ..) a [] ha (by simpa using hd)
    simpa using this
  unfold parseTag
  simp only [h1, if_neg h2, h3, Option.bind_some, h4, Option.map_some]

theorem parseTag_close {n : Str} (h : Name n) (r : Str) :
    parseTag ('/' :: (n ++ '>' :: r)) = some (.closing, n, [], r) := by
  unfold parseTag
  rw [skipWs_cons (by decide)]
  simp only [List.head?_cons, if_true, List.drop_succ_cons, List.drop_zero]
  rw [parseName_app h (by decide)]
  simp only [Option.bind_some]
  have := parseAttrs_gt .closing [] r
  rw [show '>' :: r = ['>'] ++ r from rfl, this]
  rfl

/-! ## What comes next -/

theorem identify_skip {w : Str} (hw : ∀ x ∈ w, isSpace x = true) (r : Str) :
    identify (w ++ '<' :: r) = identify ('<' :: r) := by
  unfold identify
  rw [skipWs_ws hw, skipWs_cons (by decide)]
  simp only
  repeat' split
  all_goals first | rfl | (rename_i h; exact absurd rfl h)

theorem identify_elem {c : Char} (h1 : c ≠ '?') (h2 : c ≠ '!') (r : Str) :
    identify ('<' :: c :: r) = .elem (c :: r) := by
  unfold identify
  rw [skipWs_cons (by decide)]
  simp only
  rw [if_neg (by simp), if_neg, if_neg, if_neg, if_neg, if_pos]
  · rfl
  · rfl
  all_goals simp [List.isPrefixOf, h1.symm, h2.symm]

theorem identify_text {s : Str} (h : '<' ∉ s) (hb : ∃ c ∈ s, isSpace c = false) (r : Str) :
    identify (s ++ r) = .text (s ++ r) := by
  have h1 : ∃ c t, skipWs (s ++ r) = c :: t ∧ c ≠ '<' := by
    induction s with
    | nil => obtain ⟨c, hc, _⟩ := hb; cases hc
    | cons c s ih =>
      simp only [List.mem_cons, not_or] at h
      by_cases hc : isSpace c = true
      · rw [show c :: s ++ r = [c] ++ (s ++ r) from rfl, skipWs_ws (by simpa using hc)]
        apply ih h.2
        obtain ⟨x, hx, hs⟩ := hb
        rcases List.mem_cons.1 hx with rfl | hx
        · rw [hc] at hs; cases hs
        · exact ⟨x, hx, hs⟩
      · rw [List.cons_append, skipWs_cons (by simpa using hc)]
        exact ⟨c, _, rfl, fun hh => h.1 hh.symm⟩
  obtain ⟨c, t, hs, hc⟩ := h1
  unfold identify
  rw [hs]
  simp only
  rw [if_neg (by simp), if_neg, if_neg, if_neg, if_neg, if_neg]
  all_goals simp [List.isPrefixOf, hc.symm]

/-! ## Fuel -/

theorem parseNodes_mono : ∀ (f : Nat) (isDoc : Bool) (d : Nat) (acc : List Node) (p : Str) (r : Out),
    parseNodes f isDoc d acc p = some r → parseNodes (f + 1) isDoc d acc p = some r := by
  intro f
  induction f with
  | zero => intro _ _ _ _ _ h; simp [parseNodes] at h
  | succ f ih =>
    intro isDoc d acc p r h
    rw [parseNodes] at h ⊢
    split at h
    · exact h
    · rename_i q hq
      split at h
      · exact h
      · exact h
      · exact ih _ _ _ _ _ h
      · rename_i n a rest ht
        split at h
        · rename_i h1; rw [if_pos h1]; exact h
        · rename_i h1
          rw [if_neg h1]
          split at h
          · rename_i h2; rw [if_pos h2]; exact h
          · rename_i h2
            rw [if_neg h2]
            split at h
            · cases h
            · rename_i m kids rest' hk
              rw [ih _ _ _ _ _ hk]
              simp only
              split at h
              · rename_i h3; rw [if_pos h3]; exact ih _ _ _ _ _ h
              · rename_i h3; rw [if_neg h3]; exact h
            · rename_i o ho1 ho2
              rw [ih _ _ _ _ _ ho2]
              cases o with
              | close m k r' => exact absurd rfl (ho1 m k r')
              | err => exact h
              | eof k => exact h
    · rename_i h1 h2 h3
      split at h
      · exact h
      · rename_i n rest hl
        split at h
        · rename_i h4; simp only [h4, if_true]; exact h
        · rename_i h4
          simp only [h4, if_false, Bool.false_eq_true]
          exact ih _ _ _ _ _ h

theorem parseNodes_mono' {f g : Nat} (h : f ≤ g) {isDoc : Bool} {d : Nat} {acc : List Node} {p : Str} {r : Out}
    (hp : parseNodes f isDoc d acc p = some r) : parseNodes g isDoc d acc p = some r := by
  obtain ⟨k, rfl⟩ := Nat.le.dest h
  clear h
  induction k with
  | zero => exact hp
  | succ k ih => exact parseNodes_mono _ _ _ _ _ _ ih

theorem identify_length (p : Str) : match identify p with
    | .nothing => True
    | .text q => q = p ∧ ∃ c t, skipWs p = c :: t ∧ c ≠ '<'
    | .elem q => q.length < p.length
    | .decl q => q.length < p.length
    | .comment q => q.length < p.length
    | .cdata q => q.length < p.length
    | .unknown q => q.length < p.length := by
  have hl := skipWs_length p
  unfold identify
  cases hs : skipWs p with
  | nil => simp
  | cons c t =>
    rw [hs] at hl
    simp only [List.length_cons] at hl
    simp only
    rw [if_neg (by simp)]
    split
    · rename_i h; split at h <;> (try split at h) <;> (try split at h) <;> (try split at h) <;> (try split at h) <;>
        cases h
    · rename_i q h
      split at h
      · cases h
      · split at h
        · cases h
        · split at h
          · cases h
          · split at h
            · cases h
            · split at h
              · cases h
              · rename_i hlt
                cases h
                refine ⟨rfl, c, t, rfl, ?_⟩
                rintro rfl
                simp [List.isPrefixOf] at hlt
    all_goals
      rename_i q h
      split at h
      · cases h <;> (simp only [List.length_drop, List.length_cons]; omega)
      · split at h
        · cases h <;> (simp only [List.length_drop, List.length_cons]; omega)
        · split at h
          · cases h <;> (simp only [List.length_drop, List.length_cons]; omega)
          · split at h
            · cases h <;> (simp only [List.length_drop, List.length_cons]; omega)
            · split at h
              · cases h <;> (simp only [List.length_drop, List.length_cons]; omega)
              · cases h

theorem parseText_split {e s a r : Str} (h : parseText e s = some (a, r)) : s = a ++ e ++ r := by
  induction s generalizing a r with
  | nil => simp [parseText] at h
  | cons c s ih =>
    rw [parseText] at h
    split at h
    · rename_i hp
      cases h
      rw [List.isPrefixOf_iff_prefix] at hp
      obtain ⟨t, ht⟩ := hp
      rw [← ht]
      simp
    · simp only [Option.map_eq_some_iff] at h
      obtain ⟨x, hx, he⟩ := h
      cases he
      rw [ih (a := x.1) (r := x.2) hx]
      simp

theorem parseAttrs_length (n : Nat) : ∀ (p : Str) (cl : Closing) (acc : List (Str × Str)) (y), p.length ≤ n →
    parseAttrs cl acc p = some y → y.2.2.length < p.length := by
  induction n with
  | zero =>
    intro p cl acc y hl h
    have : p = [] := List.length_eq_zero_iff.1 (by omega)
    subst this
    rw [parseAttrs_eq] at h
    simp [skipWs] at h
  | succ n ih =>
    intro p cl acc y hl h
    rw [parseAttrs_eq] at h
    have h0 := skipWs_length p
    split at h
    · cases h
    · rename_i c r hs
      rw [hs] at h0
      simp only [List.length_cons] at h0
      split at h
      · split at h
        · cases h
        · rename_i m v rest ha
          have h1 := parseAttr_length ha
          simp only [List.length_cons] at h1
          split at h
          · cases h
          · have := ih _ _ _ _ (by omega) h
            omega
      · split at h
        · cases h; simp only; omega
        · split at h
          · cases h; simp only [List.length_drop]; omega
          · cases h

theorem parseTag_length {p : Str} {y} (h : parseTag p = some y) : y.2.2.2.length < p.length := by
  unfold parseTag at h
  simp only [Option.bind_eq_some_iff, Option.map_eq_some_iff] at h
  obtain ⟨x, hx, z, hz, rfl⟩ := h
  have h1 := parseName_length (a := x.1) (r := x.2) hx
  have h2 := parseAttrs_length _ _ _ _ _ (Nat.le_refl _) hz
  have h3 := skipWs_length p
  simp only
  split at h1
  · simp only [List.length_drop] at h1; omega
  · omega

theorem parseLeaf_length {p : Str} {y} (h : parseLeaf (identify p) = some y) : y.2.length < p.length := by
  have hi := identify_length p
  unfold parseLeaf at h
  split at h
  case h_5 q hq =>
    rw [hq] at hi
    simp only at hi
    obtain ⟨rfl, c, t, hs, hc⟩ := hi
    simp only [Option.bind_eq_some_iff] at h
    obtain ⟨x, hx, h⟩ := h
    split at h
    · cases h
    · cases h
      have hsp := parseText_split (a := x.1) (r := x.2) hx
      have hne : x.1 ≠ [] := by
        intro h0
        rw [h0] at hsp
        rw [hsp, show ([] ++ "<".toList ++ x.2) = '<' :: x.2 from rfl, skipWs_cons (by decide)] at hs
        cases hs
        exact hc rfl
      rw [hsp]
      have := List.length_pos_iff.2 hne
      simp
      omega
  case h_6 => cases h
  all_goals
    rename_i q hq
    rw [hq] at hi
    simp only at hi
    simp only [Option.map_eq_some_iff] at h
    obtain ⟨x, hx, rfl⟩ := h
    have := parseText_length (a := x.1) (r := x.2) hx
    simp only
    omega

theorem parseNodes_total : ∀ (f : Nat) (isDoc : Bool) (d : Nat) (acc : List Node) (p : Str), p.length < f →
    ∃ r, parseNodes f isDoc d acc p = some r ∧ ∀ n k rest, r = .close n k rest → rest.length < p.length := by
  intro f
  induction f with
  | zero => intro _ _ _ _ h; omega
  | succ f ih =>
    intro isDoc d acc p hl
    have hi := identify_length p
    rw [parseNodes]
    split
    · exact ⟨_, rfl, by intro n k rest h; cases h⟩
    · rename_i q hq
      rw [hq] at hi
      simp only at hi
      split
      · exact ⟨_, rfl, by intro n k rest h; cases h⟩
      · rename_i ht
        have := parseTag_length ht
        simp only at this
        exact ⟨_, rfl, by intro n k rest h; cases h; omega⟩
      · rename_i n a rest ht
        have h1 := parseTag_length ht
        simp only at h1
        obtain ⟨r, hr, hc⟩ := ih isDoc d (acc ++ [.elem n a []]) rest (by omega)
        exact ⟨r, hr, fun n k rest h => by have := hc n k rest h; omega⟩
      · rename_i n a rest0 ht
        have h1 := parseTag_length ht
        simp only at h1
        split
        · exact ⟨_, rfl, by intro n k rest h; cases h⟩
        · split
          · exact ⟨_, rfl, by intro n k rest h; cases h⟩
          · obtain ⟨r, hr, hc⟩ := ih false (d + 1) [] rest0 (by omega)
            rw [hr]
            cases r with
            | err => exact ⟨_, rfl, by intro n k rest h; cases h⟩
            | eof k => exact ⟨_, rfl, by intro n k rest h; cases h⟩
            | close m k rest =>
              have h2 := hc m k rest rfl
              simp only
              split
              · obtain ⟨r', hr', hc'⟩ := ih isDoc d (acc ++ [.elem n a k]) rest (by omega)
                exact ⟨r', hr', fun n k rest h => by have := hc' n k rest h; omega⟩
              · exact ⟨_, rfl, by intro n k rest h; cases h⟩
    · rename_i h1 h2 h3
      split
      · exact ⟨_, rfl, by intro n k rest h; cases h⟩
      · rename_i n rest hl2
        have h4 := parseLeaf_length hl2
        simp only at h4
        split
        · exact ⟨_, rfl, by intro n k rest h; cases h⟩
        · obtain ⟨r', hr', hc'⟩ := ih isDoc d (acc ++ [n]) rest (by omega)
          exact ⟨r', hr', fun n k rest h => by have := hc' n k rest h; omega⟩

/-! ## Steps of the parser, without fuel -/

/-- The loop of the parser comes to the result `r`. -/
def Parses (isDoc : Bool) (d : Nat) (acc : List Node) (p : Str) (r : Out) : Prop :=
  ∃ f, parseNodes f isDoc d acc p = some r

theorem Parses.run {isDoc : Bool} {d : Nat} {acc : List Node} {p : Str} {r : Out} (h : Parses isDoc d acc p r) :
    parseNodes (p.length + 1) isDoc d acc p = some r := by
  obtain ⟨f, hf⟩ := h
  obtain ⟨r', hr, _⟩ := parseNodes_total (p.length + 1) isDoc d acc p (by omega)
  have h1 := parseNodes_mono' (Nat.le_max_left f (p.length + 1)) hf
  have h2 := parseNodes_mono' (Nat.le_max_right f (p.length + 1)) hr
  rw [hr, ← h2, h1]

variable {isDoc : Bool} {d : Nat} {acc : List Node} {r : Out}

theorem parses_eof {p : Str} (h : identify p = .nothing) : Parses isDoc d acc p (.eof acc) :=
  ⟨1, by rw [parseNodes, h]⟩

theorem parses_skip {w : Str} (hw : ∀ x ∈ w, isSpace x = true) {p : Str}
    (h : Parses isDoc d acc ('<' :: p) r) : Parses isDoc d acc (w ++ '<' :: p) r := by
  obtain ⟨f, hf⟩ := h
  cases f with
  | zero => simp [parseNodes] at hf
  | succ f =>
    refine ⟨f + 1, ?_⟩
    rw [parseNodes, identify_skip hw]
    rw [parseNodes] at hf
    exact hf

theorem parses_close {p q : Str} (hi : identify p = .elem q) {n : Str} {a rest} (ht : parseTag q = some (.closing, n, a, rest)) :
    Parses isDoc d acc p (.close n acc rest) :=
  ⟨1, by rw [parseNodes, hi]; simp only [ht]⟩

theorem parses_closed {p q : Str} (hi : identify p = .elem q) {n : Str} {a rest} (ht : parseTag q = some (.closed, n, a, rest))
    (h : Parses isDoc d (acc ++ [.elem n a []]) rest r) : Parses isDoc d acc p r := by
  obtain ⟨f, hf⟩ := h
  exact ⟨f + 1, by rw [parseNodes, hi]; simp only [ht]; exact hf⟩

theorem parses_open {p q : Str} (hi : identify p = .elem q) {n : Str} {a rest} (ht : parseTag q = some (.opened, n, a, rest))
    (hne : rest ≠ []) (hd : d + 1 ≠ maxDepth) {k rest'} (hk : Parses false (d + 1) [] rest (.close n k rest'))
    (h : Parses isDoc d (acc ++ [.elem n a k]) rest' r) : Parses isDoc d acc p r := by
  obtain ⟨f, hf⟩ := h
  obtain ⟨g, hg⟩ := hk
  refine ⟨max f g + 1, ?_⟩
  rw [parseNodes, hi]
  simp only [ht]
  rw [if_neg hne, if_neg hd, parseNodes_mono' (Nat.le_max_right f g) hg]
  simp only [if_true]
  exact parseNodes_mono' (Nat.le_max_left f g) hf

theorem parses_open_err {p q : Str} (hi : identify p = .elem q) {n : Str} {a rest}
    (ht : parseTag q = some (.opened, n, a, rest))
    (h : rest = [] ∨ d + 1 = maxDepth ∨ (∃ r', Parses false (d + 1) [] rest r' ∧
      ∀ k rest', r' ≠ .close n k rest')) : Parses isDoc d acc p .err := by
  by_cases h1 : rest = []
  · exact ⟨1, by rw [parseNodes, hi]; simp only [ht]; rw [if_pos h1]⟩
  · by_cases h2 : d + 1 = maxDepth
    · exact ⟨1, by rw [parseNodes, hi]; simp only [ht]; rw [if_neg h1, if_pos h2]⟩
    · rcases h with h | h | ⟨r', ⟨f, hf⟩, hne⟩
      · exact absurd h h1
      · exact absurd h h2
      · refine ⟨f + 1, ?_⟩
        rw [parseNodes, hi]
        simp only [ht]
        rw [if_neg h1, if_neg h2, hf]
        cases r' with
        | err => rfl
        | eof k => rfl
        | close m k rest' =>
          simp only
          rw [if_neg]
          rintro rfl
          exact hne k rest' rfl

theorem parses_leaf {p : Str} {n : Node} {rest : Str} (hl : parseLeaf (identify p) = some (n, rest))
    (hd : (n.isDecl && !declOk isDoc acc) = false) (h : Parses isDoc d (acc ++ [n]) rest r) : Parses isDoc d acc p r := by
  obtain ⟨f, hf⟩ := h
  refine ⟨f + 1, ?_⟩
  rw [parseNodes]
  split
  · rename_i h; rw [h] at hl; cases hl
  · rename_i h; rw [h] at hl; cases hl
  · rw [hl]
    simp only [hd, Bool.false_eq_true, if_false]
    exact hf

theorem parses_leaf_err {p : Str} (hl : parseLeaf (identify p) = none) (h1 : identify p ≠ .nothing)
    (h2 : ∀ q, identify p ≠ .elem q) : Parses isDoc d acc p .err := by
  refine ⟨1, ?_⟩
  rw [parseNodes]
  split
  · rename_i h; exact absurd h h1
  · rename_i h; exact absurd h (h2 _)
  · rw [hl]

end Verif.Xml
