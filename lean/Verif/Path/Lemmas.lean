import Verif.Path.Model
import Verif.Path.Spec
import Verif.Str.Props

/-!
# Lemmas on texts, parts and identifiers
-/

namespace Verif.Path

open Verif.Str Spec

/-! ### Replace -/

theorem replace_spec (old new s : List Char) (ho : old ≠ []) : Replaced old new s (replace old new s) := by
  obtain ⟨r, h1, h2⟩ := C38_replace_partial s old new ho
  unfold replace
  rw [h2 _ (Nat.le_refl _)]
  exact h1

theorem replaced_id {old new s r : List Char} (h : Replaced old new s r) (c : Char) (hc : c ∈ old) (hs : c ∉ s) : r = s := by
  cases h with
  | done => rfl
  | step => exact absurd (by simp [hc]) hs

theorem replaced_mem {old new s r : List Char} (h : Replaced old new s r) : ∀ x ∈ r, x ∈ s ∨ x ∈ new := by
  induction h with
  | done => intro x hx; exact Or.inl hx
  | step hf hr ih =>
    intro x hx
    simp only [List.mem_append] at hx ⊢
    rcases hx with (hx | hx) | hx
    · exact Or.inl (Or.inl (Or.inl hx))
    · exact Or.inr hx
    · rcases ih x hx with h | h
      · exact Or.inl (Or.inr h)
      · exact Or.inr h

theorem replaced_gone {c : Char} {new s r : List Char} (h : Replaced [c] new s r) (hn : c ∉ new) : c ∉ r := by
  induction h with
  | @done s h =>
    intro hc
    obtain ⟨a, b, rfl⟩ := List.append_of_mem hc
    exact h a.length (by unfold OccursAt; rw [List.drop_left]; exact ⟨b, rfl⟩)
  | @step a b r hf hr ih =>
    intro hc
    simp only [List.mem_append] at hc
    rcases hc with (hc | hc) | hc
    · obtain ⟨x, y, rfl⟩ := List.append_of_mem hc
      refine hf x.length (by simp) ?_
      unfold OccursAt
      rw [List.append_assoc, List.append_assoc, List.drop_left]
      exact ⟨y ++ ([c] ++ b), rfl⟩
    · exact hn hc
    · exact ih hc

theorem replaced_ne_nil {old new s r : List Char} (h : Replaced old new s r) (hs : s ≠ []) (hn : new ≠ []) : r ≠ [] := by
  cases h with
  | done => exact hs
  | step => simp [hn]

theorem replaced_parent {old new s r : List Char} (h : Replaced old new s r) (x : Char) (hx : x ∈ new) (hd : x ≠ '.')
    (hr : r = parent) : s = parent := by
  cases h with
  | done => exact hr
  | @step a b r' =>
    exfalso
    have : x ∈ parent := by rw [← hr]; simp [hx]
    simp [parent, hd] at this

/-! ### Validating and converting -/

theorem validate_spec (s : List Char) : ∃ t, Replaced ['/'] "%5C".toList s t ∧ Replaced [':'] "%3A".toList t (validate s) :=
  ⟨_, replace_spec _ _ _ (by decide), replace_spec _ _ _ (by decide)⟩

theorem validate_no_slash (s : List Char) : '/' ∉ validate s := by
  obtain ⟨t, h1, h2⟩ := validate_spec s
  intro h
  rcases replaced_mem h2 _ h with h | h
  · exact replaced_gone h1 (by decide) h
  · revert h; decide

theorem validate_ne_nil (s : List Char) (hs : s ≠ []) : validate s ≠ [] := by
  obtain ⟨t, h1, h2⟩ := validate_spec s
  exact replaced_ne_nil h2 (replaced_ne_nil h1 hs (by decide)) (by decide)

theorem validate_parent (s : List Char) (h : validate s = parent) : s = parent := by
  obtain ⟨t, h1, h2⟩ := validate_spec s
  exact replaced_parent h1 '%' (by decide) (by decide) (replaced_parent h2 '%' (by decide) (by decide) h)

theorem validate_id (s : List Char) (h1 : '/' ∉ s) (h2 : ':' ∉ s) : validate s = s := by
  unfold validate
  rw [replaced_id (replace_spec ['/'] "%5C".toList s (by decide)) '/' (by decide) h1]
  exact replaced_id (replace_spec [':'] "%3A".toList s (by decide)) ':' (by decide) h2

theorem convert_step {old : List Char} {x : Char} (ho : old ≠ []) (s : List Char) (hx : x ≠ '/') (hd : x ≠ '.') :
    ('/' ∉ s → '/' ∉ replace old [x] s) ∧ (s ≠ [] → replace old [x] s ≠ []) ∧ (replace old [x] s = parent → s = parent) := by
  have h := replace_spec old [x] s ho
  refine ⟨fun hs hm => ?_, fun hs => replaced_ne_nil h hs (by simp), fun hp => replaced_parent h x (by simp) hd hp⟩
  rcases replaced_mem h _ hm with h' | h'
  · exact hs h'
  · simp at h'; exact hx h'.symm

theorem convert_good (s : List Char) :
    ('/' ∉ s → '/' ∉ convert s) ∧ (s ≠ [] → convert s ≠ []) ∧ (convert s = parent → s = parent) := by
  unfold convert
  simp only
  have k : ∀ {old : List Char} {x : Char} (s t : List Char), old ≠ [] → x ≠ '/' → x ≠ '.' →
      (('/' ∉ s → '/' ∉ t) ∧ (s ≠ [] → t ≠ []) ∧ (t = parent → s = parent)) →
      (('/' ∉ s → '/' ∉ replace old [x] t) ∧ (s ≠ [] → replace old [x] t ≠ []) ∧ (replace old [x] t = parent → s = parent)) := by
    intro old x s t ho hx hd h
    have := convert_step ho t hx hd
    exact ⟨fun hs => this.1 (h.1 hs), fun hs => this.2.1 (h.2.1 hs), fun hp => h.2.2 (this.2.2 hp)⟩
  refine k _ _ (by decide) (by decide) (by decide) ?_
  refine k _ _ (by decide) (by decide) (by decide) ?_
  refine k _ _ (by decide) (by decide) (by decide) ?_
  refine k _ _ (by decide) (by decide) (by decide) ?_
  refine k _ _ (by decide) (by decide) (by decide) ?_
  refine k _ _ (by decide) (by decide) (by decide) ?_
  refine k _ _ (by decide) (by decide) (by decide) ?_
  refine k _ _ (by decide) (by decide) (by decide) ?_
  exact ⟨id, id, id⟩

theorem convert_id (s : List Char) (h : '%' ∉ s) : convert s = s := by
  unfold convert
  simp only
  have k : ∀ (old : List Char) (x : Char), '%' ∈ old → replace old [x] s = s := by
    intro old x ho
    exact replaced_id (replace_spec old [x] s (fun h => by rw [h] at ho; cases ho)) '%' ho h
  rw [k _ _ (by decide), k _ _ (by decide), k _ _ (by decide), k _ _ (by decide), k _ _ (by decide), k _ _ (by decide),
    k _ _ (by decide), k _ _ (by decide)]

theorem keepPiece_no_slash (w : Bool) (s : List Char) : '/' ∉ keepPiece w s := validate_no_slash _

theorem keepPiece_ne_nil (s : List Char) (hs : s ≠ []) : keepPiece false s ≠ [] := by
  unfold keepPiece
  exact validate_ne_nil _ (replaced_ne_nil (replace_spec [':'] ['/'] s (by decide)) hs (by decide))

theorem keepPiece_parent (s : List Char) (h : keepPiece false s = parent) : s = parent := by
  unfold keepPiece at h
  exact replaced_parent (replace_spec [':'] ['/'] s (by decide)) '/' (by decide) (by decide) (validate_parent _ h)

theorem keepPiece_id (s : List Char) (h1 : '/' ∉ s) (h2 : ':' ∉ s) : keepPiece false s = s := by
  unfold keepPiece
  simp only [Bool.false_eq_true, if_false]
  rw [replaced_id (replace_spec [':'] ['/'] s (by decide)) ':' (by decide) h2]
  exact validate_id s h1 h2

theorem plain_keep {p : List Char} (h : Plain p) : keepPiece false p = p :=
  keepPiece_id p (fun hc => (h.2.2 _ hc).1 rfl) (fun hc => (h.2.2 _ hc).2.2.1 rfl)

theorem plain_convert {p : List Char} (h : Plain p) : convert p = p := convert_id p (fun hc => (h.2.2 _ hc).2.2.2 rfl)

theorem plain_no_slash {p : List Char} (h : Plain p) : '/' ∉ p := fun hc => (h.2.2 _ hc).1 rfl

/-! ### Parts -/

theorem isPart_last {p q : List Char} (hq : '/' ∉ q) : IsPart p q ↔ p = q := by
  constructor
  · rintro ⟨_, a, b, h, ha, hb⟩
    rcases ha with rfl | ⟨a', rfl⟩
    · rcases hb with rfl | ⟨b', rfl⟩
      · simpa using h.symm
      · exact absurd (by rw [h]; simp) hq
    · exact absurd (by rw [h]; simp) hq
  · rintro rfl
    exact ⟨hq, [], [], by simp, Or.inl rfl, Or.inl rfl⟩

theorem isPart_cons {p q t : List Char} (hq : '/' ∉ q) : IsPart p (q ++ '/' :: t) ↔ p = q ∨ IsPart p t := by
  constructor
  · rintro ⟨hp, a, b, h, ha, hb⟩
    rcases ha with rfl | ⟨a', rfl⟩
    · left
      rcases hb with rfl | ⟨b', rfl⟩
      · exact absurd (by rw [List.append_nil, List.nil_append] at h; rw [← h]; simp) hp
      · rw [List.nil_append] at h
        rcases List.append_eq_append_iff.1 h with ⟨u, h1, h2⟩ | ⟨u, h1, h2⟩
        · rcases u with _ | ⟨x, u⟩
          · simpa using h1
          · simp only [List.cons_append, List.cons.injEq] at h2
            exact absurd (by rw [h1, ← h2.1]; simp) hp
        · rcases u with _ | ⟨x, u⟩
          · simpa using h1.symm
          · simp only [List.cons_append, List.cons.injEq] at h2
            exact absurd (by rw [h1, ← h2.1]; simp) hq
    · right
      rw [List.append_assoc, List.append_assoc] at h
      rcases List.append_eq_append_iff.1 h with ⟨u, h1, h2⟩ | ⟨u, h1, h2⟩
      · -- q ++ u = a'
        rcases u with _ | ⟨x, u⟩
        · simp only [List.nil_append, List.cons_append, List.cons.injEq, true_and] at h2
          exact ⟨hp, [], b, by simpa using h2, Or.inl rfl, hb⟩
        · simp only [List.cons_append, List.cons.injEq] at h2
          refine ⟨hp, u ++ ['/'], b, ?_, Or.inr ⟨u, rfl⟩, hb⟩
          rw [h2.2]; simp
      · rcases u with _ | ⟨x, u⟩
        · simp only [List.nil_append, List.cons_append, List.cons.injEq, true_and] at h2
          exact ⟨hp, [], b, by simpa using h2.symm, Or.inl rfl, hb⟩
        · simp only [List.cons_append, List.cons.injEq] at h2
          exact absurd (by rw [h1, ← h2.1]; simp) hq
  · rintro (rfl | ⟨hp, a, b, h, ha, hb⟩)
    · exact ⟨hq, [], '/' :: t, by simp, Or.inl rfl, Or.inr ⟨t, rfl⟩⟩
    · refine ⟨hp, q ++ '/' :: a, b, by rw [h]; simp, Or.inr ?_, hb⟩
      rcases ha with rfl | ⟨a', rfl⟩
      · exact ⟨q, rfl⟩
      · exact ⟨q ++ '/' :: a', by simp⟩

theorem first_slash (s : List Char) (h : '/' ∈ s) : ∃ q t, s = q ++ '/' :: t ∧ '/' ∉ q := by
  induction s with
  | nil => cases h
  | cons c s ih =>
    by_cases hc : c = '/'
    · exact ⟨[], s, by rw [hc]; rfl, by simp⟩
    · obtain ⟨q, t, rfl, hq⟩ := ih ((List.mem_cons.1 h).resolve_left (fun h => hc h.symm))
      exact ⟨c :: q, t, rfl, by simp [hq, Ne.symm hc]⟩

theorem last_slash (s : List Char) (h : '/' ∈ s) : ∃ u n, s = u ++ '/' :: n ∧ '/' ∉ n := by
  obtain ⟨q, t, hqt, hq⟩ := first_slash s.reverse (List.mem_reverse.2 h)
  refine ⟨t.reverse, q.reverse, ?_, by simpa using hq⟩
  rw [← List.reverse_reverse s, hqt]
  simp

theorem pieces_cons' (q t : List Char) (hq : '/' ∉ q) : ∀ cur, pieces '/' cur (q ++ '/' :: t) = (cur.reverse ++ q) :: pieces '/' [] t := by
  induction q with
  | nil => intro cur; simp [pieces]
  | cons c q ih =>
    intro cur
    have hc : c ≠ '/' := fun h => hq (by simp [h])
    rw [List.cons_append, pieces, if_neg hc, ih (fun h => hq (List.mem_cons_of_mem _ h))]
    simp

theorem pieces_cons (q t : List Char) (hq : '/' ∉ q) : pieces '/' [] (q ++ '/' :: t) = q :: pieces '/' [] t := by
  simpa using pieces_cons' q t hq []

theorem mem_pieces (n : Nat) : ∀ (s : List Char), s.length ≤ n → ∀ p, p ∈ pieces '/' [] (s ++ ['/']) ↔ IsPart p s := by
  induction n with
  | zero =>
    intro s hs p
    have : s = [] := List.length_eq_zero_iff.1 (by omega)
    subst this
    rw [isPart_last (by simp)]
    simp [pieces]
  | succ n ih =>
    intro s hs p
    by_cases h : '/' ∈ s
    · obtain ⟨q, t, rfl, hq⟩ := first_slash s h
      rw [List.append_assoc, List.cons_append, pieces_cons _ _ hq, isPart_cons hq, List.mem_cons, ih t (by simp at hs; omega)]
    · rw [isPart_last h, pieces_cons _ _ h]
      simp [pieces]

/-- The pieces that are kept of a path text that ends with a separator. -/
def kept (s : List Char) : List (List Char) := ((pieces '/' [] s).filter (· ≠ [])).map (keepPiece false)

theorem kept_cons (q t : List Char) (hq : '/' ∉ q) : kept (q ++ '/' :: t) = (if q = [] then [] else [keepPiece false q]) ++ kept t := by
  unfold kept
  rw [pieces_cons _ _ hq, List.filter_cons]
  by_cases h : q = []
  · simp [h]
  · simp [h]

theorem kept_folder (W : List (List Char)) (hW : ∀ p ∈ W, Plain p) (s : List Char) : kept (folderText W ++ s) = W ++ kept s := by
  have : ∀ W : List (List Char), (∀ p ∈ W, Plain p) → kept (W.flatMap (· ++ ['/']) ++ s) = W ++ kept s := by
    intro W
    induction W with
    | nil => intro _; rfl
    | cons p W ih =>
      intro h
      have hp := h p (List.mem_cons_self ..)
      rw [List.flatMap_cons, List.append_assoc, List.append_assoc, List.singleton_append, kept_cons _ _ (plain_no_slash hp),
        if_neg hp.1, plain_keep hp, ih (fun q hq => h q (List.mem_cons_of_mem _ hq))]
      rfl
  unfold folderText
  rw [List.cons_append, show '/' :: (W.flatMap (· ++ ['/']) ++ s) = [] ++ '/' :: (W.flatMap (· ++ ['/']) ++ s) from rfl,
    kept_cons _ _ (by simp), if_pos rfl, this W hW]
  rfl

theorem resolve_append (l : List (List Char)) : ∀ acc m, resolve acc (l ++ m) = resolve (resolve acc l) m := by
  induction l with
  | nil => intro acc m; rfl
  | cons p l ih =>
    intro acc m
    rw [List.cons_append, resolve, resolve]
    split <;> exact ih _ _

theorem resolve_plain (l : List (List Char)) (h : ∀ p ∈ l, p ≠ parent) : ∀ acc, resolve acc l = acc ++ l := by
  induction l with
  | nil => intro acc; simp [resolve]
  | cons p l ih =>
    intro acc
    rw [resolve, if_pos (show p ≠ ['.', '.'] from h p (List.mem_cons_self ..)), ih (fun q hq => h q (List.mem_cons_of_mem _ hq))]
    simp

/-! ### Identifiers -/

theorem findCh_head (t : List Char) : findCh ('/' :: t) '/' = some 0 := by
  have := findCh_split '/' [] t (by simp)
  simpa using this

theorem isWinPath_slash (t : List Char) : isWinPath ('/' :: t) = false := by
  unfold isWinPath
  rw [findCh_head]
  cases h : findCh ('/' :: t) '\\' with
  | none => rfl
  | some p =>
    simp only [decide_eq_false_iff_not, Classical.not_not]
    rcases Nat.eq_zero_or_pos p with rfl | hp
    · exfalso
      rw [findCh_zero] at h
      have := (findAt_some _ _ _ h)
      obtain ⟨-, h2, -⟩ := this
      obtain ⟨u, hu⟩ := h2
      simp at hu
    · exact hp

theorem cutFront_slash (t : List Char) : cutFront ('/' :: t) = '/' :: t := by simp [cutFront]

theorem setFullPath_slash (t : List Char) : setFullPath ('/' :: t) = resolve [[]] (kept ('/' :: t ++ ['/'])) := by
  unfold setFullPath
  rw [if_neg (by simp)]
  simp only [isWinPath_slash, cutFront_slash, Bool.false_eq_true, if_false, Bool.not_false, Bool.true_and, List.cons_append,
    List.head?_cons]
  rfl

theorem reverseFind_last (u n : List Char) (hn : '/' ∉ n) : reverseFind (u ++ '/' :: n) ['/'] = some u.length := by
  rw [C38_reverseFind _ _ (by simp)]
  constructor
  · unfold OccursAt
    rw [List.drop_left]
    exact ⟨n, rfl⟩
  · intro q hq ho
    unfold OccursAt at ho
    have e : (u ++ '/' :: n).drop q = n.drop (q - u.length - 1) := by
      rw [List.drop_append, List.drop_eq_nil_of_le (by omega), List.nil_append]
      obtain ⟨k, hk⟩ : ∃ k, q - u.length = k + 1 := ⟨q - u.length - 1, by omega⟩
      rw [hk]
      rfl
    rw [e] at ho
    obtain ⟨v, hv⟩ := ho
    exact hn (List.mem_of_mem_drop (i := q - u.length - 1) (by rw [← hv]; simp))

theorem setFileFullPath_slash (u n s : List Char) (hs : s = u ++ '/' :: n) (h0 : ∃ t, s = '/' :: t) (hn : '/' ∉ n) :
    setFileFullPath s = some ⟨resolve [[]] (kept (u ++ ['/'])), validate (replace [':'] ['/'] n)⟩ := by
  obtain ⟨t, ht⟩ := h0
  unfold setFileFullPath
  have hw : isWinPath s = false := by rw [ht]; exact isWinPath_slash t
  simp only [hw, Bool.false_eq_true, if_false, Bool.not_false, Bool.true_and]
  rw [hs, reverseFind_last u n hn]
  simp only
  rw [List.take_left, show (u ++ '/' :: n).drop (u.length + 1) = n by rw [← List.drop_drop, List.drop_left]; rfl]
  congr 2
  rcases u with _ | ⟨c, u⟩
  · simp only [decide_true, if_true]
    rw [setFullPath_slash]
    congr 1
  · have hc : c = '/' := by
      rw [hs] at ht
      simp only [List.cons_append, List.cons.injEq] at ht
      exact ht.1
    subst hc
    rw [if_neg (by simp), setFullPath_slash]

theorem getFullPath_plain (W : List (List Char)) (hW : ∀ p ∈ W, Plain p) : getFullPath ([] :: W) = folderText W := by
  unfold getFullPath folderText
  congr 1
  rw [List.flatMap_cons, convert_id [] (by simp)]
  simp only [ne_eq, not_true_eq_false, if_false, List.nil_append]
  induction W with
  | nil => rfl
  | cons p W ih =>
    have hp := hW p (List.mem_cons_self ..)
    rw [List.flatMap_cons, List.flatMap_cons, ih (fun q hq => hW q (List.mem_cons_of_mem _ hq)), plain_convert hp, if_pos hp.1]

theorem getFullPath_append (W L : List (List Char)) (hW : ∀ p ∈ W, Plain p) (hL : ∀ p ∈ L, p ≠ []) :
    getFullPath ([[]] ++ W ++ L) = folderText W ++ L.flatMap (fun p => convert p ++ ['/']) := by
  rw [← getFullPath_plain W hW]
  unfold getFullPath
  rw [List.flatMap_append]
  simp only [List.cons_append, List.nil_append]
  congr 2
  induction L with
  | nil => rfl
  | cons p L ih =>
    rw [List.flatMap_cons, List.flatMap_cons, ih (fun q hq => hL q (List.mem_cons_of_mem _ hq)),
      if_pos ((convert_good p).2.1 (hL p (List.mem_cons_self ..)))]

end Verif.Path
