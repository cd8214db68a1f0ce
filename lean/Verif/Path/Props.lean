import Verif.Path.Lemmas

/-!
# C51: files of an archive are written inside the working folder
-/

namespace Verif.Path

open Verif.Str Spec

theorem not_part_flat (L : List (List Char)) (n : List Char) (hL : ∀ p ∈ L, '/' ∉ p ∧ p ≠ parent) (hn : '/' ∉ n) (hp : n ≠ parent) :
    ¬ IsPart parent (L.flatMap (· ++ ['/']) ++ n) := by
  induction L with
  | nil => simp only [List.flatMap_nil, List.nil_append]; rw [isPart_last hn]; exact fun h => hp h.symm
  | cons p L ih =>
    have h := hL p (List.mem_cons_self ..)
    rw [List.flatMap_cons, List.append_assoc, List.append_assoc, List.singleton_append, isPart_cons h.1]
    rintro (h' | h')
    · exact h.2 h'.symm
    · exact ih (fun q hq => hL q (List.mem_cons_of_mem _ hq)) h'

theorem folderText_split (W : List (List Char)) : ∃ u, folderText W = u ++ ['/'] := by
  unfold folderText
  rcases List.eq_nil_or_concat W with rfl | ⟨W, p, rfl⟩
  · exact ⟨[], rfl⟩
  · exact ⟨'/' :: (W.flatMap (· ++ ['/']) ++ p), by simp⟩

theorem plain_ne_parent {W : List (List Char)} (hW : ∀ p ∈ W, Plain p) : ∀ p ∈ W, p ≠ parent := fun p hp => (hW p hp).2.1

theorem resolve_folder (W : List (List Char)) (hW : ∀ p ∈ W, Plain p) (s : List Char) :
    resolve [[]] (kept (folderText W ++ s)) = resolve ([[]] ++ W) (kept s) := by
  rw [kept_folder W hW, resolve_append, resolve_plain W (plain_ne_parent hW)]

/-- The identifier for a path text below the folder: `d` is the text up to the last separator. -/
theorem file_below (W : List (List Char)) (hW : ∀ p ∈ W, Plain p) (d n : List Char) (hn : '/' ∉ n)
    (hd : d = [] ∨ ∃ d', d = d' ++ ['/']) :
    setFileFullPath (folderText W ++ (d ++ n)) =
      some ⟨resolve ([[]] ++ W) (kept d), validate (replace [':'] ['/'] n)⟩ := by
  have h0 : ∃ t, folderText W ++ (d ++ n) = '/' :: t := ⟨_, rfl⟩
  rcases hd with rfl | ⟨d', rfl⟩
  · obtain ⟨u, hu⟩ := folderText_split W
    rw [setFileFullPath_slash u n _ (by rw [hu]; simp) h0 hn, ← hu]
    have := resolve_folder W hW []
    rw [List.append_nil] at this
    rw [this]
  · rw [setFileFullPath_slash (folderText W ++ d') n _ (by simp) h0 hn, List.append_assoc, resolve_folder W hW]

theorem split_last (s : List Char) : ∃ d n, s = d ++ n ∧ '/' ∉ n ∧ (d = [] ∨ ∃ d', d = d' ++ ['/']) := by
  by_cases h : '/' ∈ s
  · obtain ⟨u, n, rfl, hn⟩ := last_slash s h
    exact ⟨u ++ ['/'], n, by simp, hn, Or.inr ⟨u, rfl⟩⟩
  · exact ⟨[], s, rfl, h, Or.inl rfl⟩

/-- A text below the folder without a part `..` gives a file inside the folder. -/
theorem inside_below (W : List (List Char)) (hW : ∀ p ∈ W, Plain p) (s : List Char) (hs : ¬ IsPart parent s) :
    ∃ f, setFileFullPath (folderText W ++ s) = some f ∧ Inside (folderText W) f.fullPath := by
  obtain ⟨d, n, rfl, hn, hd⟩ := split_last s
  refine ⟨_, file_below W hW d n hn hd, ?_⟩
  have hpart : ∀ p ∈ kept d, '/' ∉ p ∧ p ≠ parent ∧ p ≠ [] := by
    intro p hp
    rcases hd with rfl | ⟨d', rfl⟩
    · simp [kept, pieces] at hp
    · unfold kept at hp
      obtain ⟨q, hq, rfl⟩ := List.mem_map.1 hp
      rw [List.mem_filter, mem_pieces _ d' (Nat.le_refl _), decide_eq_true_iff] at hq
      refine ⟨keepPiece_no_slash _ _, fun h => ?_, keepPiece_ne_nil q hq.2⟩
      have := keepPiece_parent q h
      subst this
      apply hs
      obtain ⟨h1, a, b, h2, h3, h4⟩ := hq.1
      refine ⟨h1, a, b ++ '/' :: n, by rw [h2]; simp, h3, Or.inr ?_⟩
      rcases h4 with rfl | ⟨b', rfl⟩
      · exact ⟨n, rfl⟩
      · exact ⟨b' ++ '/' :: n, rfl⟩
  have hnp : n ≠ parent := by
    rintro rfl
    apply hs
    refine ⟨by decide, d, [], by simp, hd, Or.inl rfl⟩
  unfold File.fullPath
  simp only
  rw [resolve_plain _ (fun p hp => (hpart p hp).2.1), getFullPath_append W _ hW (fun p hp => (hpart p hp).2.2), List.append_assoc]
  refine ⟨_, rfl, ?_⟩
  have hm : (kept d).flatMap (fun p => convert p ++ ['/']) = ((kept d).map convert).flatMap (· ++ ['/']) := by
    rw [List.flatMap_map]
  rw [hm]
  have hfn : validate (replace [':'] ['/'] n) = keepPiece false n := rfl
  apply not_part_flat
  · intro p hp
    obtain ⟨q, hq, rfl⟩ := List.mem_map.1 hp
    obtain ⟨h1, h2, h3⟩ := hpart q hq
    exact ⟨(convert_good q).1 h1, fun h => h2 ((convert_good q).2.2 h)⟩
  · rw [hfn]
    exact (convert_good _).1 (keepPiece_no_slash _ _)
  · rw [hfn]
    exact fun h => hnp (keepPiece_parent _ ((convert_good _).2.2 h))

theorem dropWhile_slash (s : List Char) : ∃ k, s = List.replicate k '/' ++ s.dropWhile (· == '/') := by
  induction s with
  | nil => exact ⟨0, rfl⟩
  | cons c s ih =>
    by_cases h : c = '/'
    · obtain ⟨k, hk⟩ := ih
      refine ⟨k + 1, ?_⟩
      rw [List.dropWhile_cons_of_pos (by simp [h]), List.replicate_succ, List.cons_append, ← hk, h]
    · exact ⟨0, by rw [List.dropWhile_cons_of_neg (by simp [h])]; rfl⟩

theorem part_dropWhile {p s : List Char} (h : IsPart p (s.dropWhile (· == '/'))) : IsPart p s := by
  obtain ⟨k, hk⟩ := dropWhile_slash s
  obtain ⟨h1, a, b, h2, h3, h4⟩ := h
  refine ⟨h1, List.replicate k '/' ++ a, b, by rw [hk, h2]; simp, ?_, h4⟩
  rcases h3 with rfl | ⟨a', rfl⟩
  · rcases k with _ | k
    · exact Or.inl rfl
    · exact Or.inr ⟨List.replicate k '/', by rw [List.append_nil, List.replicate_succ']⟩
  · exact Or.inr ⟨List.replicate k '/' ++ a', by simp⟩

/-- C51, MVR: an entry none of whose parts is `..` is written inside the working folder. -/
theorem C51_mvr_inside_partial (W : List (List Char)) (hW : ∀ p ∈ W, Plain p) (entry : List Char) (he : entry ≠ [])
    (hp : ¬ IsPart parent entry) :
    ∃ f, mvrTarget ([] :: W) entry = some f ∧ Inside (folderText W) f.fullPath := by
  unfold mvrTarget setFile
  rw [if_neg he, getFullPath_plain W hW]
  exact inside_below W hW _ (fun h => hp (part_dropWhile h))

/-- C51, MVR: an entry with usual names is written to the path of the same text, so entries with different names are written to
different files. -/
theorem C51_mvr_exact (W L : List (List Char)) (n : List Char) (hW : ∀ p ∈ W, Plain p) (hL : ∀ p ∈ L, Plain p) (hn : Plain n) :
    ∃ f, mvrTarget ([] :: W) (L.flatMap (· ++ ['/']) ++ n) = some f ∧
      f.fullPath = folderText W ++ (L.flatMap (· ++ ['/']) ++ n) := by
  have hd : L.flatMap (· ++ ['/']) = [] ∨ ∃ d', L.flatMap (· ++ ['/']) = d' ++ ['/'] := by
    rcases List.eq_nil_or_concat L with rfl | ⟨L, p, rfl⟩
    · exact Or.inl rfl
    · exact Or.inr ⟨L.flatMap (· ++ ['/']) ++ p, by simp⟩
  have hk : ∀ L : List (List Char), (∀ p ∈ L, Plain p) → kept (L.flatMap (· ++ ['/'])) = L := by
    intro L hL
    induction L with
    | nil => rfl
    | cons p L ih =>
      have hp := hL p (List.mem_cons_self ..)
      rw [List.flatMap_cons, List.append_assoc, List.singleton_append, kept_cons _ _ (plain_no_slash hp), if_neg hp.1, plain_keep hp,
        ih (fun q hq => hL q (List.mem_cons_of_mem _ hq))]
      rfl
  have hne : (L.flatMap (· ++ ['/']) ++ n) ≠ [] := by simp [hn.1]
  have hdrop : (L.flatMap (· ++ ['/']) ++ n).dropWhile (· == '/') = L.flatMap (· ++ ['/']) ++ n := by
    have : ∀ q t, Plain q → (q ++ t).dropWhile (· == '/') = q ++ t := by
      intro q t hq
      rcases q with _ | ⟨c, q⟩
      · exact absurd rfl hq.1
      · rw [List.cons_append, List.dropWhile_cons_of_neg]
        simpa using (hq.2.2 c (List.mem_cons_self ..)).1
    rcases L with _ | ⟨p, L⟩
    · have := this n [] hn
      simpa using this
    · rw [List.flatMap_cons, List.append_assoc, List.append_assoc]
      exact this p _ (hL p (List.mem_cons_self ..))
  unfold mvrTarget setFile
  rw [if_neg hne, getFullPath_plain W hW, hdrop, file_below W hW _ n (plain_no_slash hn) hd, hk L hL]
  refine ⟨_, rfl, ?_⟩
  unfold File.fullPath
  simp only
  rw [resolve_plain L (plain_ne_parent hL)]
  have hWL : ∀ p ∈ W ++ L, Plain p := fun p hp => (List.mem_append.1 hp).elim (hW p) (hL p)
  have hv : validate (replace [':'] ['/'] n) = n := plain_keep hn
  rw [hv, plain_convert hn, List.append_assoc, List.singleton_append, getFullPath_plain _ hWL]
  simp [folderText]

theorem not_inside (W V : List (List Char)) (n : List Char) (hV : V ≠ []) (hn : '/' ∉ n) :
    ¬ Inside (folderText (W ++ V)) (folderText W ++ n) := by
  rintro ⟨rest, h, -⟩
  unfold folderText at h
  rw [List.flatMap_append, ← List.cons_append, List.append_assoc] at h
  have h' := List.append_cancel_left h
  apply hn
  rw [h']
  rcases V with _ | ⟨p, V⟩
  · exact absurd rfl hV
  · simp

/-- The text that leads up over `k` folders. -/
def up (k : Nat) : List Char := (List.replicate k ("../".toList)).flatten

theorem kept_up (k : Nat) : kept (up k) = List.replicate k parent := by
  induction k with
  | zero => rfl
  | succ k ih =>
    unfold up at ih ⊢
    rw [List.replicate_succ, List.flatten_cons, show "../".toList ++ (List.replicate k "../".toList).flatten =
      parent ++ '/' :: (List.replicate k "../".toList).flatten from rfl, kept_cons _ _ (by decide), if_neg (by decide), ih,
      keepPiece_id _ (by decide) (by decide)]
    rfl

theorem resolve_up (acc V : List (List Char)) : resolve (acc ++ V) (List.replicate V.length parent) = acc := by
  obtain ⟨n, hn⟩ : ∃ n, V.length = n := ⟨_, rfl⟩
  rw [hn]
  induction n generalizing V with
  | zero => rw [List.length_eq_zero_iff.1 hn]; simp [resolve]
  | succ n ih =>
    rcases List.eq_nil_or_concat V with rfl | ⟨V, p, rfl⟩
    · simp at hn
    · rw [List.replicate_succ, resolve, if_neg (by decide)]
      rw [List.concat_eq_append, ← List.append_assoc, List.dropLast_concat]
      exact ih V (by simpa using hn)

/-- C51 is violated for MVR archives: with enough `../` an entry is written to any folder above the working folder; with `W` empty
it is the root of the file system. -/
theorem C51_mvr_violated (W V : List (List Char)) (hW : ∀ p ∈ W, Plain p) (hV : ∀ p ∈ V, Plain p) (n : List Char) (hn : Plain n) :
    ∃ f, mvrTarget ([] :: (W ++ V)) (up V.length ++ n) = some f ∧ f.fullPath = folderText W ++ n ∧
      (V ≠ [] → ¬ Inside (folderText (W ++ V)) f.fullPath) := by
  have hWV : ∀ p ∈ W ++ V, Plain p := fun p hp => (List.mem_append.1 hp).elim (hW p) (hV p)
  have hd : up V.length = [] ∨ ∃ d', up V.length = d' ++ ['/'] := by
    rcases hk : V.length with _ | k
    · exact Or.inl rfl
    · refine Or.inr ⟨up k ++ "..".toList, ?_⟩
      unfold up
      rw [List.replicate_succ', List.flatten_append]
      simp
  have hdrop : (up V.length ++ n).dropWhile (· == '/') = up V.length ++ n := by
    rcases hk : V.length with _ | k
    · rcases n with _ | ⟨c, n⟩
      · exact absurd rfl hn.1
      · exact List.dropWhile_cons_of_neg (by simpa using (hn.2.2 c (List.mem_cons_self ..)).1)
    · unfold up
      rw [List.replicate_succ, List.flatten_cons]
      exact List.dropWhile_cons_of_neg (by decide)
  unfold mvrTarget setFile
  rw [if_neg (by simp [hn.1]), getFullPath_plain _ hWV, hdrop, file_below _ hWV _ n (plain_no_slash hn) hd, kept_up,
    ← List.append_assoc, resolve_up]
  have hpath : File.fullPath ⟨[[]] ++ W, validate (replace [':'] ['/'] n)⟩ = folderText W ++ n := by
    unfold File.fullPath
    simp only
    have hv : validate (replace [':'] ['/'] n) = n := plain_keep hn
    rw [hv, plain_convert hn, List.singleton_append, getFullPath_plain W hW]
  exact ⟨_, rfl, hpath, fun hV' => by rw [hpath]; exact not_inside W V n hV' (plain_no_slash hn)⟩

/-! ### GDTF archives -/

/-- What `extractFolder` takes off: leading non-empty parts, until no separator or a leading one is left. -/
theorem extractFolder_spec (path : List Char) : ∀ acc, ∃ (L : List (List Char)) (rest : List Char),
    extractFolder acc path = (acc ++ L.flatMap (· ++ ['/']), rest) ∧ path = L.flatMap (· ++ ['/']) ++ rest ∧
    (∀ p ∈ L, p ≠ [] ∧ '/' ∉ p) ∧ ('/' ∉ rest ∨ ∃ t, rest = '/' :: t) := by
  obtain ⟨n, hn⟩ : ∃ n, path.length = n := ⟨_, rfl⟩
  induction n using Nat.strongRecOn generalizing path with
  | ind n ih =>
    intro acc
    by_cases h : '/' ∈ path
    · obtain ⟨q, t, rfl, hq⟩ := first_slash path h
      rcases q with _ | ⟨c, q⟩
      · refine ⟨[], '/' :: t, ?_, rfl, by simp, Or.inr ⟨t, rfl⟩⟩
        rw [extractFolder.eq_def, List.nil_append]
        split
        · rename_i p hp
          rw [findCh_head] at hp
          simp at hp
        · simp
      · have hf : findCh (c :: q ++ '/' :: t) '/' = some (q.length + 1) := by
          have := findCh_split '/' (c :: q) t hq
          simpa using this
        have e1 : (c :: q ++ '/' :: t).take (q.length + 2) = c :: q ++ ['/'] := by
          rw [show q.length + 2 = (c :: q).length + 1 by simp, List.take_length_add_append]
          rfl
        have e2 : (c :: q ++ '/' :: t).drop (q.length + 2) = t := by
          rw [show q.length + 2 = (c :: q).length + 1 by simp, List.drop_length_add_append]
          rfl
        obtain ⟨L, rest, h1, h2, h3, h4⟩ := ih t.length (by subst hn; simp; omega) t rfl (acc ++ (c :: q ++ ['/']))
        refine ⟨(c :: q) :: L, rest, ?_, by rw [List.flatMap_cons, h2]; simp, ?_, h4⟩
        · rw [extractFolder.eq_def]
          split
          · rename_i p hp
            rw [hf] at hp
            have hp : q.length = p := by simpa using hp
            subst hp
            rw [e1, e2, h1]
            simp
          · rename_i hno
            exact absurd hf (hno q.length)
        · intro p hp
          rcases List.mem_cons.1 hp with rfl | hp
          · exact ⟨by simp, hq⟩
          · exact h3 p hp
    · refine ⟨[], path, ?_, rfl, by simp, Or.inl h⟩
      rw [extractFolder.eq_def]
      split
      · rename_i p hp
        rw [findCh_none '/' path h] at hp
        cases hp
      · simp

theorem replace_remove (s : List Char) : replace ['/'] [] s = s.filter (· ≠ '/') := by
  unfold replace
  rw [replace_single '/' s _ (Nat.le_refl _)]
  rfl

theorem filter_parts (L : List (List Char)) (hL : ∀ p ∈ L, '/' ∉ p) : (L.flatMap (· ++ ['/'])).filter (· ≠ '/') = L.flatten := by
  induction L with
  | nil => rfl
  | cons p L ih =>
    have hp : p.filter (· ≠ '/') = p := by
      rw [List.filter_eq_self]
      intro c hc
      simpa using fun h : c = '/' => hL p (List.mem_cons_self ..) (h ▸ hc)
    rw [List.flatMap_cons, List.filter_append, List.filter_append, hp, ih (fun q hq => hL q (List.mem_cons_of_mem _ hq))]
    simp

/-- The folder an entry of a GDTF archive goes to, and the text the rest of its name is appended to. -/
theorem gdtf_folder (W : List (List Char)) (hW : ∀ p ∈ W, Plain p) (flat : List Char) (hf : '/' ∉ flat) :
    setFolder ([] :: W) ('/' :: flat) =
      some (resolve ([[]] ++ W) (if flat = [] then [] else [keepPiece false flat])) := by
  unfold setFolder
  rw [if_neg (by simp), getFullPath_plain W hW]
  have e : folderText W ++ '/' :: flat = '/' :: (W.flatMap (· ++ ['/']) ++ '/' :: flat) := rfl
  rw [e, setFullPath_slash, ← e, List.append_assoc, resolve_folder W hW]
  rw [show '/' :: flat ++ ['/'] = [] ++ '/' :: (flat ++ '/' :: []) from rfl, kept_cons _ _ (by simp), if_pos rfl,
    kept_cons _ _ hf]
  simp [kept, pieces]

/-- C51, GDTF: an entry none of whose parts is `.` or `..` (after `\` has become `/`) is written inside the working folder. -/
theorem C51_gdtf_inside_partial (W : List (List Char)) (hW : ∀ p ∈ W, Plain p) (entry : List Char)
    (h1 : ¬ IsPart parent (replace ['\\'] ['/'] entry)) (h2 : ¬ IsPart ['.'] (replace ['\\'] ['/'] entry))
    (f : File) (hf : gdtfTarget ([] :: W) entry = some f) : Inside (folderText W) f.fullPath := by
  unfold gdtfTarget at hf
  generalize replace ['\\'] ['/'] entry = path at *
  obtain ⟨L, rest, e1, e2, hL, hrest⟩ := extractFolder_spec path []
  rw [e1] at hf
  simp only [List.nil_append] at hf
  rw [replace_remove, filter_parts L (fun p hp => (hL p hp).2)] at hf
  have hflat : '/' ∉ L.flatten := by
    intro h
    obtain ⟨p, hp, hc⟩ := List.mem_flatten.1 h
    exact (hL p hp).2 hc
  have hpartL : ∀ p ∈ L, IsPart p path := by
    rw [e2]
    clear e1 e2 hf hflat h1 h2
    induction L with
    | nil => intro p hp; cases hp
    | cons q L ih =>
      intro p hp
      rw [List.flatMap_cons, List.append_assoc, List.append_assoc, List.singleton_append, isPart_cons (hL q (List.mem_cons_self ..)).2]
      rcases List.mem_cons.1 hp with rfl | hp
      · exact Or.inl rfl
      · exact Or.inr (ih (fun q hq => hL q (List.mem_cons_of_mem _ hq)) p hp)
  have hpartR : IsPart parent rest → IsPart parent path := by
    rw [e2]
    intro h
    clear e1 e2 hf hflat h1 h2 hpartL
    induction L with
    | nil => exact h
    | cons q L ih =>
      rw [List.flatMap_cons, List.append_assoc, List.append_assoc, List.singleton_append, isPart_cons (hL q (List.mem_cons_self ..)).2]
      exact Or.inr (ih (fun q hq => hL q (List.mem_cons_of_mem _ hq)))
  have hdot : L.flatten ≠ parent := by
    intro h
    rcases L with _ | ⟨p, L⟩
    · cases h
    · have hp := hL p (List.mem_cons_self ..)
      have hpp := hpartL p (List.mem_cons_self ..)
      rw [List.flatten_cons] at h
      rcases p with _ | ⟨c, _ | ⟨c', p⟩⟩
      · exact hp.1 rfl
      · simp only [List.singleton_append, parent, List.cons.injEq] at h
        rw [h.1] at hpp
        exact h2 hpp
      · simp only [List.cons_append, parent, List.cons.injEq, List.append_eq_nil_iff] at h
        rw [h.1, h.2.1, h.2.2.1] at hpp
        exact h1 hpp
  rw [gdtf_folder W hW _ hflat] at hf
  simp only at hf
  unfold setFile at hf
  by_cases hr : rest = []
  · rw [if_pos hr] at hf; cases hf
  · rw [if_neg hr] at hf
    have hrp : ¬ IsPart parent (rest.dropWhile (· == '/')) := fun h => h1 (hpartR (part_dropWhile h))
    by_cases hfl : L.flatten = []
    · rw [if_pos hfl, resolve] at hf
      rw [List.singleton_append, getFullPath_plain W hW] at hf
      obtain ⟨g, hg, hin⟩ := inside_below W hW _ hrp
      rw [hg] at hf
      cases hf
      exact hin
    · rw [if_neg hfl] at hf
      have hk : keepPiece false L.flatten ≠ parent := fun h => hdot (keepPiece_parent _ h)
      rw [resolve_plain _ (by simpa using hk), getFullPath_append W _ hW (by simpa using keepPiece_ne_nil _ hfl)] at hf
      simp only [List.flatMap_cons, List.flatMap_nil, List.append_nil] at hf
      rw [List.append_assoc] at hf
      obtain ⟨g, hg, hin⟩ := inside_below W hW (convert (keepPiece false L.flatten) ++ ['/'] ++ rest.dropWhile (· == '/')) (by
        rw [List.append_assoc, List.singleton_append, isPart_cons ((convert_good _).1 (keepPiece_no_slash _ _))]
        rintro (h | h)
        · exact hk ((convert_good _).2.2 h.symm)
        · exact hrp h)
      rw [hg] at hf
      cases hf
      exact hin

theorem replace_absent (old new s : List Char) (c : Char) (hc : c ∈ old) (hs : c ∉ s) : replace old new s = s :=
  replaced_id (replace_spec old new s (fun h => by rw [h] at hc; cases hc)) c hc hs

theorem extract_one (acc a n : List Char) (ha : a ≠ []) (has : '/' ∉ a) :
    extractFolder acc (a ++ '/' :: n) = extractFolder (acc ++ (a ++ ['/'])) n := by
  rcases a with _ | ⟨c, a⟩
  · exact absurd rfl ha
  · have hf : findCh (c :: a ++ '/' :: n) '/' = some (a.length + 1) := by
      have := findCh_split '/' (c :: a) n has
      simpa using this
    have e1 : (c :: a ++ '/' :: n).take (a.length + 2) = c :: a ++ ['/'] := by
      rw [show a.length + 2 = (c :: a).length + 1 by simp, List.take_length_add_append]
      rfl
    have e2 : (c :: a ++ '/' :: n).drop (a.length + 2) = n := by
      rw [show a.length + 2 = (c :: a).length + 1 by simp, List.drop_length_add_append]
      rfl
    rw [extractFolder.eq_def]
    split
    · rename_i p hp
      rw [hf] at hp
      have hp : a.length = p := by simpa using hp
      subst hp
      rw [e1, e2]
    · rename_i hno
      exact absurd hf (hno a.length)

theorem extract_none (acc n : List Char) (hn : '/' ∉ n) : extractFolder acc n = (acc, n) := by
  rw [extractFolder.eq_def]
  split
  · rename_i p hp
    rw [findCh_none '/' n hn] at hp
    cases hp
  · rfl

/-- The target of an entry with one flattened folder. -/
theorem gdtf_target (H : List (List Char)) (flat n : List Char) (entry folder : List Char)
    (he : extractFolder [] (replace ['\\'] ['/'] entry) = (folder, n)) (hf : folder.filter (· ≠ '/') = flat) :
    gdtfTarget H entry = match setFolder H ('/' :: flat) with
      | some target => setFile target n
      | none => none := by
  unfold gdtfTarget
  rw [he]
  simp only
  rw [replace_remove, hf]
  cases setFolder H ('/' :: flat) <;> rfl

/-- C51, GDTF: an entry with a usual name, in no folder or in one, is written to the path of the same text. -/
theorem C51_gdtf_exact (W : List (List Char)) (hW : ∀ p ∈ W, Plain p) (a n : List Char) (ha : Plain a) (hn : Plain n) :
    (∃ f, gdtfTarget ([] :: W) n = some f ∧ f.fullPath = folderText W ++ n) ∧
    (∃ f, gdtfTarget ([] :: W) (a ++ '/' :: n) = some f ∧ f.fullPath = folderText W ++ (a ++ '/' :: n)) := by
  have hnb : '\\' ∉ n := fun h => (hn.2.2 _ h).2.1 rfl
  have hab : '\\' ∉ a := fun h => (ha.2.2 _ h).2.1 rfl
  have hdrop : n.dropWhile (· == '/') = n := by
    rcases n with _ | ⟨c, n⟩
    · rfl
    · exact List.dropWhile_cons_of_neg (by simpa using (hn.2.2 c (List.mem_cons_self ..)).1)
  have file : ∀ V : List (List Char), (∀ p ∈ V, Plain p) → ∃ f, setFile ([] :: V) n = some f ∧ f.fullPath = folderText V ++ n := by
    intro V hV
    have := C51_mvr_exact V [] n hV (by simp) hn
    simpa [mvrTarget] using this
  constructor
  · have he : extractFolder [] (replace ['\\'] ['/'] n) = ([], n) := by
      rw [replace_absent _ _ _ '\\' (by simp) hnb, extract_none _ _ (plain_no_slash hn)]
    rw [gdtf_target _ [] n n [] he rfl, gdtf_folder W hW [] (by simp)]
    simp only [if_true, resolve]
    exact file W hW
  · have he : extractFolder [] (replace ['\\'] ['/'] (a ++ '/' :: n)) = (a ++ ['/'], n) := by
      rw [replace_absent _ _ _ '\\' (by simp) (by simp [hab, hnb]), extract_one _ _ _ ha.1 (plain_no_slash ha),
        extract_none _ _ (plain_no_slash hn)]
      rfl
    have hfa : (a ++ ['/']).filter (· ≠ '/') = a := by
      have := filter_parts [a] (by simpa using plain_no_slash ha)
      simpa using this
    rw [gdtf_target _ a n _ _ he hfa, gdtf_folder W hW a (plain_no_slash ha), if_neg ha.1, plain_keep ha]
    rw [resolve_plain _ (by simpa using ha.2.1)]
    simp only
    have hWa : ∀ p ∈ W ++ [a], Plain p := fun p hp => (List.mem_append.1 hp).elim (hW p) (by rintro h; rw [List.mem_singleton.1 h]; exact ha)
    obtain ⟨f, h1, h2⟩ := file (W ++ [a]) hWa
    refine ⟨f, h1, ?_⟩
    rw [h2]
    simp [folderText]

/-- C51 is violated for GDTF archives: the entries `../n`, `..\\n` and `././n` are written to the folder above the working folder;
the last although no part of it is `..`. -/
theorem C51_gdtf_violated (W : List (List Char)) (q n : List Char) (hW : ∀ p ∈ W, Plain p) (hq : Plain q) (hn : Plain n)
    (entry : List Char) (he : entry = "../".toList ++ n ∨ entry = "..\\".toList ++ n ∨ entry = "././".toList ++ n) :
    ∃ f, gdtfTarget ([] :: (W ++ [q])) entry = some f ∧ f.fullPath = folderText W ++ n ∧
      ¬ Inside (folderText (W ++ [q])) f.fullPath := by
  have hnb : '\\' ∉ n := fun h => (hn.2.2 _ h).2.1 rfl
  have hns := plain_no_slash hn
  have hWq : ∀ p ∈ W ++ [q], Plain p := fun p hp => (List.mem_append.1 hp).elim (hW p) (by rintro h; rw [List.mem_singleton.1 h]; exact hq)
  have h2 : "../".toList ++ n = parent ++ '/' :: n := rfl
  have e2 : extractFolder [] ("../".toList ++ n) = ("../".toList, n) := by
    rw [h2, extract_one _ _ _ (by decide) (by decide), extract_none _ _ hns]
    rfl
  have e3 : extractFolder [] ("././".toList ++ n) = ("././".toList, n) := by
    rw [show "././".toList ++ n = ['.'] ++ '/' :: (['.'] ++ '/' :: n) from rfl, extract_one _ _ _ (by decide) (by decide),
      extract_one _ _ _ (by decide) (by decide), extract_none _ _ hns]
    rfl
  have step : ∃ folder, extractFolder [] (replace ['\\'] ['/'] entry) = (folder, n) ∧ folder.filter (· ≠ '/') = parent := by
    rcases he with rfl | rfl | rfl
    · refine ⟨_, ?_, show "../".toList.filter (· ≠ '/') = parent by decide⟩
      rw [replace_absent _ _ _ '\\' (by simp) (by simp [hnb]), e2]
    · refine ⟨_, ?_, show "../".toList.filter (· ≠ '/') = parent by decide⟩
      have hrep : Replaced ['\\'] ['/'] ("..\\".toList ++ n) ("../".toList ++ n) := by
        have := @Replaced.step Char ['\\'] ['/'] "..".toList n n (by
          intro k hk ho
          unfold OccursAt at ho
          have : k = 0 ∨ k = 1 := by simp at hk; omega
          rcases this with rfl | rfl <;> (obtain ⟨v, hv⟩ := ho; simp at hv)) (Replaced.done (by
          intro k ho
          unfold OccursAt at ho
          obtain ⟨v, hv⟩ := ho
          exact hnb (List.mem_of_mem_drop (i := k) (by rw [← hv]; simp))))
        exact this
      rw [Replaced.unique (by simp) (replace_spec ['\\'] ['/'] _ (by simp)) hrep, e2]
    · refine ⟨_, ?_, show "././".toList.filter (· ≠ '/') = parent by decide⟩
      rw [replace_absent _ _ _ '\\' (by simp) (by simp [hnb]), e3]
  obtain ⟨folder, h3, h4⟩ := step
  rw [gdtf_target _ parent n entry folder h3 h4, gdtf_folder _ hWq parent (by decide), if_neg (by decide),
    keepPiece_id parent (by decide) (by decide)]
  have hr : resolve ([[]] ++ (W ++ [q])) [parent] = [] :: W := by
    rw [resolve, if_neg (by decide), ← List.append_assoc, List.dropLast_concat]
    rfl
  rw [hr]
  simp only
  obtain ⟨f, h5, h6⟩ := C51_mvr_exact W [] n hW (by simp) hn
  have h5 : setFile ([] :: W) n = some f := by simpa [mvrTarget] using h5
  have h6 : f.fullPath = folderText W ++ n := by simpa using h6
  exact ⟨f, h5, h6, by rw [h6]; exact not_inside W [q] n (by simp) hns⟩

/-- C51 is violated for GDTF archives: entries in different folders are written to the same file (`a/b/n` and `ab/n`), and the
contents of entries with the same file name are kept under the same key (`a/n` and `b/n`). -/
theorem C51_gdtf_collision_violated (H : List (List Char)) (a b n : List Char) (ha : Plain a) (hb : Plain b) (hn : Plain n) :
    gdtfTarget H (a ++ '/' :: (b ++ '/' :: n)) = gdtfTarget H ((a ++ b) ++ '/' :: n) ∧
    gdtfBufferKey (a ++ '/' :: n) = gdtfBufferKey (b ++ '/' :: n) := by
  have hx : ∀ p, Plain p → '\\' ∉ p := fun p hp h => (hp.2.2 _ h).2.1 rfl
  have e1 : extractFolder [] (replace ['\\'] ['/'] (a ++ '/' :: (b ++ '/' :: n))) = (a ++ ['/'] ++ (b ++ ['/']), n) := by
    rw [replace_absent _ _ _ '\\' (by simp) (by simp [hx a ha, hx b hb, hx n hn]), extract_one _ _ _ ha.1 (plain_no_slash ha),
      extract_one _ _ _ hb.1 (plain_no_slash hb), extract_none _ _ (plain_no_slash hn)]
    rfl
  have e2 : extractFolder [] (replace ['\\'] ['/'] ((a ++ b) ++ '/' :: n)) = ((a ++ b) ++ ['/'], n) := by
    rw [replace_absent _ _ _ '\\' (by simp) (by simp [hx a ha, hx b hb, hx n hn]),
      extract_one _ _ _ (by simp [ha.1]) (by simp [plain_no_slash ha, plain_no_slash hb]), extract_none _ _ (plain_no_slash hn)]
    rfl
  constructor
  · rw [gdtf_target H _ n _ _ e1 rfl, gdtf_target H _ n _ _ e2 rfl]
    simp
  · have key : ∀ p, Plain p → gdtfBufferKey (p ++ '/' :: n) = n := by
      intro p hp
      unfold gdtfBufferKey
      rw [replace_absent _ _ _ '\\' (by simp) (by simp [hx p hp, hx n hn]), extract_one _ _ _ hp.1 (plain_no_slash hp),
        extract_none _ _ (plain_no_slash hn)]
    rw [key a ha, key b hb]

/-! ### Identifiers -/

/-- C51: a folder identifier keeps a path of usual names, with and without the final separator. -/
theorem C51_folder (W : List (List Char)) (hW : ∀ p ∈ W, Plain p) :
    getFullPath (setFullPath (folderText W)) = folderText W ∧
    ∀ q, Plain q → getFullPath (setFullPath (folderText W ++ q)) = folderText (W ++ [q]) := by
  constructor
  · have e : folderText W = '/' :: W.flatMap (· ++ ['/']) := rfl
    have : setFullPath (folderText W) = [] :: W := by
      rw [e, setFullPath_slash, ← e, resolve_folder W hW, show (['/'] : List Char) = [] ++ '/' :: [] from rfl,
        kept_cons _ _ (by simp), if_pos rfl]
      simp [kept, pieces, resolve]
    rw [this, getFullPath_plain W hW]
  · intro q hq
    have e : folderText W ++ q = '/' :: (W.flatMap (· ++ ['/']) ++ q) := rfl
    have : setFullPath (folderText W ++ q) = [] :: (W ++ [q]) := by
      rw [e, setFullPath_slash, ← e, List.append_assoc, resolve_folder W hW, kept_cons _ _ (plain_no_slash hq), if_neg hq.1,
        plain_keep hq, resolve_plain _ (by simpa [kept, pieces] using hq.2.1)]
      simp [kept, pieces]
    rw [this, getFullPath_plain]
    exact fun p hp => (List.mem_append.1 hp).elim (hW p) (by rintro h; rw [List.mem_singleton.1 h]; exact hq)

/-! ### Examples -/

/-- A working folder. -/
def demoFolder : List (List Char) := ["tmp".toList, "work".toList]

theorem demoFolder_plain : ∀ p ∈ demoFolder, Plain p := by
  intro p hp
  simp only [demoFolder, List.mem_cons, List.not_mem_nil, or_false] at hp
  rcases hp with rfl | rfl <;> exact ⟨by decide, by decide, by decide⟩

/-- An entry with strange parts, but without `..`, is inside. -/
example : ∃ f, mvrTarget ([] :: demoFolder) "a:b/.../x\\y.3ds".toList = some f ∧ Inside (folderText demoFolder) f.fullPath :=
  C51_mvr_inside_partial demoFolder demoFolder_plain _ (by decide) (by
    rw [show "a:b/.../x\\y.3ds".toList = "a:b".toList ++ '/' :: ("...".toList ++ '/' :: "x\\y.3ds".toList) from rfl,
      isPart_cons (by decide), isPart_cons (by decide), isPart_last (by decide)]
    decide)

/-- The hypotheses of `C51_gdtf_inside_partial` hold for an entry with several folders. -/
example : ∃ f, gdtfTarget ([] :: demoFolder) "a/b/c.png".toList = some f ∧ Inside (folderText demoFolder) f.fullPath := by
  have hd : replace ['\\'] ['/'] "a/b/c.png".toList = "a".toList ++ '/' :: ("b".toList ++ '/' :: "c.png".toList) := by
    rw [replace_absent _ _ _ '\\' (by simp) (by decide)]
    rfl
  have h1 : ¬ IsPart parent (replace ['\\'] ['/'] "a/b/c.png".toList) := by
    rw [hd, isPart_cons (by decide), isPart_cons (by decide), isPart_last (by decide)]
    decide
  have h2 : ¬ IsPart ['.'] (replace ['\\'] ['/'] "a/b/c.png".toList) := by
    rw [hd, isPart_cons (by decide), isPart_cons (by decide), isPart_last (by decide)]
    decide
  have he := (C51_gdtf_collision_violated ([] :: demoFolder) "a".toList "b".toList "c.png".toList ⟨by decide, by decide, by decide⟩
    ⟨by decide, by decide, by decide⟩ ⟨by decide, by decide, by decide⟩).1
  obtain ⟨f, hf, -⟩ := (C51_gdtf_exact demoFolder demoFolder_plain "ab".toList "c.png".toList ⟨by decide, by decide, by decide⟩
    ⟨by decide, by decide, by decide⟩).2
  have hf : gdtfTarget ([] :: demoFolder) "a/b/c.png".toList = some f := he.trans hf
  exact ⟨f, hf, C51_gdtf_inside_partial demoFolder demoFolder_plain _ h1 h2 f hf⟩

/-- From the folder `/tmp/work` an archive can write to `/`. -/
example : ∃ f, mvrTarget ([] :: ([] ++ demoFolder)) (up 2 ++ "evil".toList) = some f ∧ f.fullPath = "/evil".toList := by
  obtain ⟨f, h1, h2, -⟩ := C51_mvr_violated [] demoFolder (by simp) demoFolder_plain "evil".toList
    ⟨by decide, by decide, by decide⟩
  exact ⟨f, h1, h2⟩

/-- An entry of a GDTF archive. -/
example : ∃ f, gdtfTarget ([] :: demoFolder) "wheels/gobo.png".toList = some f ∧ f.fullPath = "/tmp/work/wheels/gobo.png".toList :=
  (C51_gdtf_exact demoFolder demoFolder_plain "wheels".toList "gobo.png".toList ⟨by decide, by decide, by decide⟩
    ⟨by decide, by decide, by decide⟩).2

end Verif.Path
