import Verif.Xml.Cut

/-! What the parser accepts: every element has an end tag of its name. -/

namespace Verif.Xml
open Spec

theorem skipWs_split (s : Str) : ∃ w, Blank w ∧ s = w ++ skipWs s := by
  refine ⟨s.takeWhile isSpace, ?_, ?_⟩
  · intro c hc
    exact (isSpace_iff c).1 (List.all_eq_true.1 (List.all_takeWhile) c hc)
  · exact (List.takeWhile_append_dropWhile ..).symm

theorem parseName_name {s n r : Str} (h : parseName s = some (n, r)) : Name n := by
  cases s with
  | nil => simp [parseName] at h
  | cons c s =>
    rw [parseName] at h
    split at h
    · rename_i hc
      cases h
      refine ⟨⟨c, _, rfl, (isNameStart_iff c).1 hc⟩, ?_⟩
      intro x hx
      rcases List.mem_cons.1 hx with rfl | hx
      · exact Or.inl ((isNameStart_iff x).1 hc)
      · exact (isNameChar_iff x).1 (List.all_eq_true.1 (List.all_takeWhile) x hx)
    · cases h

theorem parseText_char {q : Char} {s a r : Str} (h : parseText [q] s = some (a, r)) : q ∉ a := by
  induction s generalizing a r with
  | nil => simp [parseText] at h
  | cons c s ih =>
    rw [parseText] at h
    split at h
    · cases h; simp
    · rename_i hne
      simp only [Option.map_eq_some_iff] at h
      obtain ⟨x, hx, he⟩ := h
      cases he
      have := ih (a := x.1) (r := x.2) hx
      simp only [List.isPrefixOf, Bool.and_true, beq_iff_eq] at hne
      simp [this, hne]

theorem parseAttr_sound {p n v r : Str} (h : parseAttr p = some (n, v, r)) :
    ∃ w1 w2 q raw, Name n ∧ Blank w1 ∧ Blank w2 ∧ (q = '"' ∨ q = '\'') ∧ q ∉ raw ∧ v = getStr true raw ∧
      p = n ++ (w1 ++ '=' :: (w2 ++ q :: (raw ++ q :: r))) := by
  unfold parseAttr at h
  simp only [Option.bind_eq_some_iff] at h
  obtain ⟨x, hx, h⟩ := h
  have h1 := parseName_split (n := x.1) (r := x.2) hx
  have h2 := parseName_name (n := x.1) (r := x.2) hx
  split at h
  · rename_i r1 e1
    obtain ⟨w1, hw1, hs1⟩ := skipWs_split x.2
    rw [e1] at hs1
    split at h
    · rename_i q r2 e2
      obtain ⟨w2, hw2, hs2⟩ := skipWs_split r1
      rw [e2] at hs2
      split at h
      · rename_i hq
        simp only [Option.map_eq_some_iff] at h
        obtain ⟨y, hy, he⟩ := h
        cases he
        have h3 := parseText_split (a := y.1) (r := y.2) hy
        refine ⟨w1, w2, q, y.1, h2, hw1, hw2, hq, parseText_char (a := y.1) (r := y.2) hy, rfl, ?_⟩
        rw [h1, hs1, hs2, h3]
        simp
      · cases h
    · cases h
  · cases h

theorem parseAttrs_sound (m : Nat) : ∀ (p : Str) (cl : Closing) (acc : List (Str × Str)) (res : Closing)
    (as : List (Str × Str)) (r : Str), p.length ≤ m → (acc.map (·.1)).Nodup → parseAttrs cl acc p = some (res, as, r) →
    ∃ new t w fin, as = acc ++ new ∧ AttrsText new t ∧ (as.map (·.1)).Nodup ∧ Blank w ∧
      ((fin = ['>'] ∧ res = cl) ∨ (fin = ['/', '>'] ∧ res = .closed)) ∧ p = t ++ (w ++ (fin ++ r)) := by
  induction m with
  | zero =>
    intro p cl acc res as r hl _ h
    have : p = [] := List.length_eq_zero_iff.1 (by omega)
    subst this
    rw [parseAttrs_eq] at h
    simp [skipWs] at h
  | succ m ih =>
    intro p cl acc res as r hl hd h
    rw [parseAttrs_eq] at h
    have h0 := skipWs_length p
    obtain ⟨w, hw, hs⟩ := skipWs_split p
    split at h
    · cases h
    · rename_i c t e1
      rw [e1] at hs h0
      simp only [List.length_cons] at h0
      split at h
      · split at h
        · cases h
        · rename_i n v rest ha
          have h1 := parseAttr_length ha
          simp only [List.length_cons] at h1
          split at h
          · cases h
          · rename_i hn
            have hd' : ((acc ++ [(n, v)]).map (·.1)).Nodup := by
              rw [List.map_append, List.nodup_append]
              refine ⟨hd, by simp, ?_⟩
              intro x hx y hy hxy
              simp only [List.map_cons, List.map_nil, List.mem_singleton] at hy
              subst hy; subst hxy
              apply hn
              obtain ⟨z, hz, rfl⟩ := List.mem_map.1 hx
              rw [List.any_eq_true]
              exact ⟨z, hz, by simp⟩
            obtain ⟨new, t', w', fin, ha1, ha2, ha3, ha4, ha5, ha6⟩ := ih _ _ _ _ _ _ (by omega) hd' h
            obtain ⟨w1, w2, q, raw, g1, g2, g3, g4, g5, g6, g7⟩ := parseAttr_sound ha
            refine ⟨(n, v) :: new, w ++ (n ++ (w1 ++ '=' :: (w2 ++ q :: (raw ++ q :: t')))), w', fin,
              by rw [ha1]; simp, ?_, ha3, ha4, ha5, ?_⟩
            · rw [g6]; exact .cons hw g1 g2 g3 g4 g5 ha2
            · rw [hs, g7, ha6]; simp
      · split at h
        · rename_i hc
          cases h
          exact ⟨[], [], w, ['>'], by simp, .nil, hd, hw, Or.inl ⟨rfl, rfl⟩, by rw [hs, hc]; rfl⟩
        · split at h
          · rename_i hh
            cases h
            cases t with
            | nil => simp at hh
            | cons d t =>
              simp only [List.head?_cons, Option.some.injEq] at hh
              exact ⟨[], [], w, ['/', '>'], by simp, .nil, hd, hw, Or.inr ⟨rfl, rfl⟩, by rw [hs, hh.1, hh.2]; rfl⟩
          · cases h

theorem parseTag_sound {p : Str} {cl n as r} (h : parseTag p = some (cl, n, as, r)) :
    ∃ s, '<' :: p = s ++ r ∧
      match (generalizing := false) cl with
      | .opened => TagText n as [] ['>'] s
      | .closing => TagText n as ['/'] ['>'] s
      | .closed => ∃ slash, (slash = [] ∨ slash = ['/']) ∧ TagText n as slash ['/', '>'] s := by
  unfold parseTag at h
  simp only [Option.bind_eq_some_iff, Option.map_eq_some_iff] at h
  obtain ⟨x, hx, z, hz, he⟩ := h
  obtain ⟨w, hw, hs⟩ := skipWs_split p
  have h1 := parseName_split (n := x.1) (r := x.2) hx
  have h2 := parseName_name (n := x.1) (r := x.2) hx
  obtain ⟨new, t, w', fin, ha1, ha2, ha3, ha4, ha5, ha6⟩ :=
    parseAttrs_sound _ _ _ _ _ _ _ (Nat.le_refl _) (by simp) hz
  rw [List.nil_append] at ha1
  cases he
  subst ha1
  have hsl : ∃ slash, skipWs p = slash ++ (x.1 ++ x.2) ∧ (((skipWs p).head? = some '/' ∧ slash = ['/']) ∨
      (¬ (skipWs p).head? = some '/' ∧ slash = [])) := by
    by_cases hh : (skipWs p).head? = some '/'
    · rw [if_pos hh] at h1
      refine ⟨['/'], ?_, Or.inl ⟨hh, rfl⟩⟩
      cases hp : skipWs p with
      | nil => rw [hp] at hh; cases hh
      | cons c u =>
        rw [hp] at hh h1
        simp only [List.head?_cons, Option.some.injEq] at hh
        rw [hh, ← h1]; rfl
    · rw [if_neg hh] at h1
      exact ⟨[], h1, Or.inr ⟨hh, rfl⟩⟩
  obtain ⟨slash, h3, h4⟩ := hsl
  refine ⟨'<' :: (w ++ (slash ++ (x.1 ++ (t ++ (w' ++ fin))))), ?_, ?_⟩
  · rw [hs, h3, ha6]; simp
  · rcases h4 with ⟨hh, rfl⟩ | ⟨hh, rfl⟩
    · simp only [if_pos hh] at ha5
      rcases ha5 with ⟨rfl, hr⟩ | ⟨rfl, hr⟩
      · rw [hr]; exact ⟨w, t, w', hw, h2, ha2, ha3, ha4, rfl⟩
      · rw [hr]; exact ⟨_, Or.inr rfl, w, t, w', hw, h2, ha2, ha3, ha4, rfl⟩
    · simp only [if_neg hh] at ha5
      rcases ha5 with ⟨rfl, hr⟩ | ⟨rfl, hr⟩
      · rw [hr]; exact ⟨w, t, w', hw, h2, ha2, ha3, ha4, rfl⟩
      · rw [hr]; exact ⟨_, Or.inl rfl, w, t, w', hw, h2, ha2, ha3, ha4, rfl⟩

theorem prefix_split {e s : Str} (h : e.isPrefixOf s = true) : s = e ++ s.drop e.length := by
  rw [List.isPrefixOf_iff_prefix] at h
  obtain ⟨t, rfl⟩ := h
  simp

theorem skipWs_head {p : Str} {c : Char} {t : Str} (h : skipWs p = c :: t) : isSpace c = false := by
  have := List.head?_dropWhile_not isSpace p
  unfold skipWs at h
  rw [h] at this
  simpa using this

theorem identify_sound (p : Str) : match identify p with
    | .nothing => Blank p
    | .text q => q = p ∧ ∃ w c t, Blank w ∧ p = w ++ c :: t ∧ ¬ Space c ∧ c ≠ '<'
    | .elem q => ∃ w, Blank w ∧ p = w ++ '<' :: q
    | .decl q => ∃ w, Blank w ∧ p = w ++ ("<?".toList ++ q)
    | .comment q => ∃ w, Blank w ∧ p = w ++ ("<!--".toList ++ q)
    | .cdata q => ∃ w, Blank w ∧ p = w ++ ("<![CDATA[".toList ++ q)
    | .unknown q => ∃ w, Blank w ∧ p = w ++ ("<!".toList ++ q) := by
  obtain ⟨w, hw, hs⟩ := skipWs_split p
  unfold identify
  simp only
  by_cases h0 : skipWs p = []
  · rw [if_pos h0]
    simp only
    rw [h0, List.append_nil] at hs
    rw [hs]; exact hw
  · rw [if_neg h0]
    have key : ∀ e : Str, e.isPrefixOf (skipWs p) = true → p = w ++ (e ++ (skipWs p).drop e.length) :=
      fun e he => hs.trans (congrArg (w ++ ·) (prefix_split he))
    by_cases h1 : "<?".toList.isPrefixOf (skipWs p) = true
    · rw [if_pos h1]; exact ⟨w, hw, key _ h1⟩
    · rw [if_neg h1]
      by_cases h2 : "<!--".toList.isPrefixOf (skipWs p) = true
      · rw [if_pos h2]; exact ⟨w, hw, key _ h2⟩
      · rw [if_neg h2]
        by_cases h3 : "<![CDATA[".toList.isPrefixOf (skipWs p) = true
        · rw [if_pos h3]; exact ⟨w, hw, key _ h3⟩
        · rw [if_neg h3]
          by_cases h4 : "<!".toList.isPrefixOf (skipWs p) = true
          · rw [if_pos h4]; exact ⟨w, hw, key _ h4⟩
          · rw [if_neg h4]
            by_cases h5 : "<".toList.isPrefixOf (skipWs p) = true
            · rw [if_pos h5]; exact ⟨w, hw, key _ h5⟩
            · rw [if_neg h5]
              refine ⟨rfl, ?_⟩
              cases hp : skipWs p with
              | nil => exact absurd hp h0
              | cons c t =>
                refine ⟨w, c, t, hw, by rw [← hp]; exact hs, ?_, ?_⟩
                · intro hc
                  have := skipWs_head hp
                  rw [(isSpace_iff c).2 hc] at this
                  cases this
                · rintro rfl
                  rw [hp] at h5
                  exact h5 rfl

theorem parseLeaf_sound {p : Str} {n : Node} {r : Str} (h : parseLeaf (identify p) = some (n, r)) :
    ∃ w s, Blank w ∧ Item n s ∧ p = w ++ (s ++ r) := by
  have hi := identify_sound p
  unfold parseLeaf at h
  split at h
  case h_6 => cases h
  case h_5 x hx =>
    rw [hx] at hi
    simp only at hi
    obtain ⟨rfl, w, c, t, hw, hp, hc, hlt⟩ := hi
    simp only [Option.bind_eq_some_iff] at h
    obtain ⟨y, hy, h⟩ := h
    split at h
    · cases h
    · cases h
      have h1 := parseText_split (a := y.1) (r := y.2) hy
      have h2 := parseText_char (a := y.1) (r := y.2) hy
      refine ⟨[], y.1, (fun c hc => nomatch hc), .text ?_ h2, h1.trans (by simp)⟩
      intro hb
      apply hc
      -- `c` is the first byte that is no white space, and it is before the `<`
      have hcm : c ∈ y.1 := by
        rw [hp] at h1
        rw [List.append_assoc, List.append_eq_append_iff] at h1
        rcases h1 with ⟨u, g1, g2⟩ | ⟨u, g1, g2⟩
        · cases u with
          | nil => simp only [List.nil_append] at g2; injection g2 with g _; exact absurd g hlt
          | cons d u =>
            injection g2 with g _
            rw [g1, ← g]; simp
        · cases u with
          | nil => simp only [List.nil_append] at g2; injection g2 with g _; exact absurd g.symm hlt
          | cons d u =>
            injection g2 with g _
            have g' : d = '<' := g.symm
            have : Space '<' := hw '<' (by rw [g1, g']; simp)
            exact absurd this (by decide)
      exact hb c hcm
  all_goals
    rename_i x hx
    rw [hx] at hi
    simp only at hi
    obtain ⟨w, hw, hp⟩ := hi
    simp only [Option.map_eq_some_iff] at h
    obtain ⟨y, hy, he⟩ := h
    cases he
    have h1 := parseText_split (a := y.1) (r := y.2) hy
    rw [h1] at hp
  · exact ⟨w, _, hw, .decl (t := y.1), by rw [hp]; simp⟩
  · exact ⟨w, _, hw, .comment (t := y.1), by rw [hp]; simp⟩
  · exact ⟨w, _, hw, .cdata (t := y.1), by rw [hp]; simp⟩
  · exact ⟨w, _, hw, .unknown (t := y.1), by rw [hp]; simp⟩

theorem parseNodes_sound : ∀ (f : Nat) (isDoc : Bool) (d : Nat) (acc : List Node) (p : Str) (o : Out),
    parseNodes f isDoc d acc p = some o →
    match o with
    | .err => True
    | .eof k => ∃ new, k = acc ++ new ∧ Items new p
    | .close n k r => ∃ new b c, k = acc ++ new ∧ Items new b ∧ EndTag n c ∧ p = b ++ (c ++ r) := by
  intro f
  induction f with
  | zero => intro _ _ _ _ _ h; simp [parseNodes] at h
  | succ f ih =>
    intro isDoc d acc p o h
    have hi := identify_sound p
    have step : ∀ (x : Node) (w s rest : Str), Blank w → Item x s → p = w ++ (s ++ rest) →
        parseNodes f isDoc d (acc ++ [x]) rest = some o →
        (match (generalizing := false) o with
        | .err => True
        | .eof k => ∃ new, k = acc ++ new ∧ Items new p
        | .close n k r => ∃ new b c, k = acc ++ new ∧ Items new b ∧ EndTag n c ∧ p = b ++ (c ++ r)) := by
      intro x w s rest hw hx hp h
      have := ih _ _ _ _ _ h
      cases o with
      | err => trivial
      | eof k =>
        obtain ⟨new, h1, h2⟩ := this
        exact ⟨x :: new, by rw [h1]; simp, by rw [hp]; exact .cons hw hx h2⟩
      | close n k r =>
        obtain ⟨new, b, c, h1, h2, h3, h4⟩ := this
        exact ⟨x :: new, w ++ (s ++ b), c, by rw [h1]; simp, .cons hw hx h2, h3, by rw [hp, h4]; simp⟩
    rw [parseNodes] at h
    split at h
    · rename_i hn
      rw [hn] at hi
      cases h
      exact ⟨[], by simp, .nil hi⟩
    · rename_i q hq
      rw [hq] at hi
      simp only at hi
      obtain ⟨w, hw, hp⟩ := hi
      split at h
      · cases h; trivial
      · rename_i ht
        cases h
        obtain ⟨s, h1, h2⟩ := parseTag_sound ht
        exact ⟨[], w, s, by simp, .nil hw, ⟨_, h2⟩, by rw [hp, h1]⟩
      · rename_i ht
        obtain ⟨s, h1, slash, h2, h3⟩ := parseTag_sound ht
        exact step _ w s _ hw (.empty slash h2 h3) (by rw [hp, h1]) h
      · rename_i n a rest ht
        obtain ⟨s, h1, h2⟩ := parseTag_sound ht
        split at h
        · cases h; trivial
        · split at h
          · cases h; trivial
          · split at h
            · cases h
            · rename_i m kids rest' hk
              split at h
              · rename_i hm
                subst hm
                obtain ⟨new, b, c, g1, g2, g3, g4⟩ := ih _ _ _ _ _ hk
                rw [List.nil_append] at g1
                subst g1
                exact step _ w (s ++ b ++ c) rest' hw (.elem h2 g2 g3) (by rw [hp, h1, g4]; simp) h
              · cases h; trivial
            · cases h; trivial
    · split at h
      · cases h; trivial
      · rename_i n rest hl
        obtain ⟨w, s, h1, h2, h3⟩ := parseLeaf_sound hl
        split at h
        · cases h; trivial
        · exact step _ w s rest h1 h2 h3 h

theorem parseDoc_sound {s : Str} {doc : Doc} (h : parseDoc s = some doc) :
    ∃ w b rest, Blank w ∧ Items doc.nodes b ∧ (rest = [] ∨ ∃ n c r, EndTag n c ∧ rest = c ++ r) ∧
      s.takeWhile (fun c => c ≠ '\x00') = w ++ ((if doc.bom then bomText else []) ++ (b ++ rest)) := by
  unfold parseDoc at h
  simp only at h
  obtain ⟨w, hw, hs⟩ := skipWs_split (s.takeWhile (fun c => c ≠ '\x00'))
  generalize hcut : s.takeWhile (fun c => c ≠ '\x00') = cut at *
  generalize hb : bomText.isPrefixOf (skipWs cut) = bom at *
  have hp : skipWs cut = (if bom then bomText else []) ++ (if bom then (skipWs cut).drop 3 else skipWs cut) := by
    cases bom with
    | true => exact prefix_split hb
    | false => simp
  generalize hq : (if bom = true then (skipWs cut).drop 3 else skipWs cut) = q at *
  by_cases h0 : cut = [] ∨ q = []
  · rw [if_pos h0] at h; cases h
  · rw [if_neg h0] at h
    split at h
    · rename_i nodes hn
      cases h
      obtain ⟨new, h1, h2⟩ := parseNodes_sound _ _ _ _ _ _ hn
      rw [List.nil_append] at h1
      subst h1
      exact ⟨w, _, [], hw, h2, Or.inl rfl, by rw [List.append_nil, ← hp]; exact hs⟩
    · rename_i n nodes r hn
      cases h
      obtain ⟨new, b, c, h1, h2, h3, h4⟩ := parseNodes_sound _ _ _ _ _ _ hn
      rw [List.nil_append] at h1
      subst h1
      exact ⟨w, b, c ++ r, hw, h2, Or.inr ⟨_, c, r, h3, rfl⟩, by rw [← h4, ← hp]; exact hs⟩
    · cases h

end Verif.Xml
