import Verif.Str.Lemmas

/-!
# C38, C39: searching, slicing and editing strings; splitting

Specification vocabulary: `sub <+: s.drop p` ("`sub` occurs in `s` at position `p`").
-/

namespace Verif.Str

variable {α : Type} [DecidableEq α]

/-- `sub` occurs in `s` at `p`. -/
def OccursAt (sub s : List α) (p : Nat) : Prop := sub <+: s.drop p

instance (sub s : List α) (p : Nat) : Decidable (OccursAt sub s p) := inferInstanceAs (Decidable (_ <+: _))

theorem findAt_some (sub : List α) : ∀ (s : List α) (p : Nat), findAt sub s = some p →
    p ≤ s.length ∧ OccursAt sub s p ∧ ∀ q, q < p → ¬ OccursAt sub s q := by
  intro s
  induction s with
  | nil =>
    intro p h
    unfold findAt at h
    split at h
    · rename_i hs; injection h with h; subst h; subst hs
      exact ⟨Nat.zero_le _, List.prefix_rfl, by intro q hq; omega⟩
    · cases h
  | cons c t ih =>
    intro p h
    unfold findAt at h
    split at h
    · rename_i hs; injection h with h; subst h
      exact ⟨Nat.zero_le _, by simpa [OccursAt] using hs, by intro q hq; omega⟩
    · rename_i hs
      cases hf : findAt sub t with
      | none => simp [hf] at h
      | some p' =>
        simp [hf] at h
        subst h
        obtain ⟨h1, h2, h3⟩ := ih p' hf
        refine ⟨by simp; omega, by simpa [OccursAt] using h2, ?_⟩
        intro q hq
        cases q with
        | zero => simpa [OccursAt] using hs
        | succ q => simpa [OccursAt] using h3 q (by omega)

theorem findAt_none (sub : List α) : ∀ (s : List α), findAt sub s = none → ∀ q, q ≤ s.length → ¬ OccursAt sub s q := by
  intro s
  induction s with
  | nil =>
    intro h q hq
    unfold findAt at h
    split at h
    · cases h
    · rename_i hs
      have : q = 0 := by simpa using hq
      subst this
      simpa [OccursAt] using hs
  | cons c t ih =>
    intro h q hq
    unfold findAt at h
    split at h
    · cases h
    · rename_i hs
      cases hf : findAt sub t with
      | some p' => simp [hf] at h
      | none =>
        cases q with
        | zero => simpa [OccursAt] using hs
        | succ q => simpa [OccursAt] using ih hf q (by simpa using hq)

theorem occursAt_drop (sub s : List α) (p q : Nat) : OccursAt sub (s.drop p) q ↔ OccursAt sub s (p + q) := by
  unfold OccursAt; rw [List.drop_drop]

theorem stdFind_some (s sub : List α) (pos p : Nat) (h : stdFind s sub pos = some p) :
    pos ≤ p ∧ p ≤ s.length ∧ OccursAt sub s p ∧ ∀ q, pos ≤ q → q < p → ¬ OccursAt sub s q := by
  unfold stdFind at h
  split at h
  · rename_i hp
    cases hf : findAt sub (s.drop pos) with
    | none => simp [hf] at h
    | some r =>
      simp [hf] at h
      subst h
      obtain ⟨h1, h2, h3⟩ := findAt_some sub _ r hf
      rw [occursAt_drop] at h2
      simp at h1
      refine ⟨by omega, by omega, by rwa [Nat.add_comm], ?_⟩
      intro q hq hq'
      have := h3 (q - pos) (by omega)
      rw [occursAt_drop] at this
      rwa [show pos + (q - pos) = q by omega] at this
  · cases h

theorem occursAt_ne_nil (s sub : List α) (hs : sub ≠ []) (q : Nat) (h : OccursAt sub s q) : q < s.length := by
  obtain ⟨t, ht⟩ := h
  have := congrArg List.length ht
  have h0 : 0 < sub.length := List.length_pos_iff.2 hs
  simp at this
  omega

theorem occursAt_length (s sub : List α) (hs : sub ≠ []) (q : Nat) (h : OccursAt sub s q) :
    q + sub.length ≤ s.length := by
  have h1 := occursAt_ne_nil s sub hs q h
  obtain ⟨t, ht⟩ := h
  have := congrArg List.length ht
  simp at this
  omega

theorem stdFind_none (s sub : List α) (hs : sub ≠ []) (pos : Nat) (h : stdFind s sub pos = none) :
    ∀ q, pos ≤ q → ¬ OccursAt sub s q := by
  intro q hq ho
  have hl := occursAt_ne_nil s sub hs q ho
  unfold stdFind at h
  rw [if_pos (by omega)] at h
  simp at h
  have := findAt_none sub _ h (q - pos) (by simp; omega)
  rw [occursAt_drop, show pos + (q - pos) = q by omega] at this
  exact this ho

/-- **C38**, Find: the answer `p` is the first position at or after `pos` where `sub` occurs. -/
theorem C38_find (s sub : List α) (hs : sub ≠ []) (pos p : Nat) :
    find s sub pos = some p ↔ pos ≤ p ∧ OccursAt sub s p ∧ ∀ q, pos ≤ q → q < p → ¬ OccursAt sub s q := by
  have h0 : ¬ sub.length = 0 := by simpa using hs
  unfold find
  rw [if_neg h0]
  constructor
  · intro h
    obtain ⟨h1, _, h3, h4⟩ := stdFind_some s sub pos p h
    exact ⟨h1, h3, h4⟩
  · rintro ⟨h1, h2, h3⟩
    cases hf : stdFind s sub pos with
    | none => exact absurd h2 (stdFind_none s sub hs pos hf p h1)
    | some r =>
      obtain ⟨g1, _, g3, g4⟩ := stdFind_some s sub pos r hf
      have a : ¬ r < p := fun hlt => h3 r g1 hlt g3
      have b : ¬ p < r := fun hlt => g4 p h1 hlt h2
      congr 1; omega

/-- **C38**, Find answers -1 exactly when there is no occurrence (or the pattern is empty). -/
theorem C38_find_none (s sub : List α) (pos : Nat) :
    find s sub pos = none ↔ sub = [] ∨ ∀ q, pos ≤ q → ¬ OccursAt sub s q := by
  by_cases hs : sub = []
  · simp [find, hs]
  · simp only [hs, false_or]
    constructor
    · intro h
      have h0 : ¬ sub.length = 0 := by simpa using hs
      rw [find, if_neg h0] at h
      exact stdFind_none s sub hs pos h
    · intro h
      cases hf : find s sub pos with
      | none => rfl
      | some p => exact absurd ((C38_find s sub hs pos p).1 hf).2.1 (h p ((C38_find s sub hs pos p).1 hf).1)

example : find "a/b/c".toList "/".toList 2 = some 3 ∧ find "abc".toList "/".toList = none := by decide

theorem rfindBelow_some (s sub : List α) : ∀ n p, rfindBelow s sub n = some p ↔
    p ≤ n ∧ OccursAt sub s p ∧ ∀ q, p < q → q ≤ n → ¬ OccursAt sub s q := by
  intro n
  induction n with
  | zero =>
    intro p
    unfold rfindBelow
    constructor
    · intro h
      split at h
      · rename_i hh; injection h with h; subst h
        exact ⟨Nat.le_refl _, by simpa [OccursAt] using hh, by intro q h1 h2; omega⟩
      · cases h
    · rintro ⟨h1, h2, _⟩
      have : p = 0 := by omega
      subst this
      rw [if_pos (by simpa [OccursAt] using h2)]
  | succ n ih =>
    intro p
    unfold rfindBelow
    constructor
    · intro h
      split at h
      · rename_i hh; injection h with h; subst h
        exact ⟨Nat.le_refl _, by simpa [OccursAt] using hh, by intro q h1 h2; omega⟩
      · rename_i hh
        obtain ⟨g1, g2, g3⟩ := (ih p).1 h
        refine ⟨by omega, g2, ?_⟩
        intro q h1 h2
        by_cases hq : q = n + 1
        · subst hq; simpa [OccursAt] using hh
        · exact g3 q h1 (by omega)
    · rintro ⟨h1, h2, h3⟩
      by_cases hp : p = n + 1
      · subst hp; rw [if_pos (by simpa [OccursAt] using h2)]
      · have := h3 (n+1) (by omega) (Nat.le_refl _)
        rw [if_neg (by simpa [OccursAt] using this)]
        exact (ih p).2 ⟨by omega, h2, fun q a b => h3 q a (by omega)⟩

/-- **C38**, ReverseFind: the last occurrence. -/
theorem C38_reverseFind (s sub : List α) (hs : sub ≠ []) (p : Nat) :
    reverseFind s sub = some p ↔ OccursAt sub s p ∧ ∀ q, p < q → ¬ OccursAt sub s q := by
  have h0 : ¬ sub.length = 0 := by simpa using hs
  unfold reverseFind
  rw [if_neg h0, rfindBelow_some]
  constructor
  · rintro ⟨h1, h2, h3⟩
    refine ⟨h2, fun q hq ho => h3 q hq ?_ ho⟩
    exact Nat.le_of_lt (occursAt_ne_nil s sub hs q ho)
  · rintro ⟨h1, h2⟩
    exact ⟨Nat.le_of_lt (occursAt_ne_nil s sub hs p h1), h1, fun q a _ => h2 q a⟩

example : reverseFind "a.b.gdtf".toList ".".toList = some 3 := by decide

/-! ### Replace -/

/-- Specification of "replace all non-overlapping occurrences from left to right". -/
inductive Replaced (old new : List α) : List α → List α → Prop
  | done {s} (h : ∀ q, ¬ OccursAt old s q) : Replaced old new s s
  | step {a b r} (hfirst : ∀ q, q < a.length → ¬ OccursAt old (a ++ old ++ b) q)
      (hrest : Replaced old new b r) : Replaced old new (a ++ old ++ b) (a ++ new ++ r)

theorem occursAt_split (sub s : List α) (p : Nat) (h : OccursAt sub s p) :
    s = s.take p ++ sub ++ s.drop (p + sub.length) := by
  obtain ⟨t, ht⟩ := h
  have : s.drop (p + sub.length) = t := by
    rw [← List.drop_drop, ← ht, List.drop_left]
  rw [this, List.append_assoc, ht, List.take_append_drop]

theorem replaceLoop_spec (old new : List α) (ho : old ≠ []) : ∀ (n : Nat) (done rest : List α),
    rest.length ≤ n → ∃ r, Replaced old new rest r ∧
      ∀ fuel, n + 1 ≤ fuel → replaceLoop old new fuel (done ++ rest, done.length) = some (done ++ r) := by
  intro n
  induction n with
  | zero =>
    intro done rest hl
    have : rest = [] := by simpa using hl
    subst this
    refine ⟨[], .done (fun q h => by have := occursAt_ne_nil _ _ ho q h; simp at this), ?_⟩
    intro fuel hf
    obtain ⟨f, rfl⟩ : ∃ f, fuel = f + 1 := ⟨fuel - 1, by omega⟩
    have : stdFind (done ++ []) old done.length = none := by
      cases h : stdFind (done ++ []) old done.length with
      | none => rfl
      | some p =>
        obtain ⟨h1, h2, h3, _⟩ := stdFind_some _ _ _ _ h
        have := occursAt_ne_nil _ _ ho p h3
        simp at this; omega
    simp only [replaceLoop, replaceStep, this]
  | succ n ih =>
    intro done rest hl
    cases h : stdFind (done ++ rest) old done.length with
    | none =>
      refine ⟨rest, .done ?_, ?_⟩
      · intro q hq
        have := stdFind_none _ _ ho _ h (done.length + q) (by omega)
        rw [← occursAt_drop, List.drop_left] at this
        exact this hq
      · intro fuel hf
        obtain ⟨f, rfl⟩ : ∃ f, fuel = f + 1 := ⟨fuel - 1, by omega⟩
        simp only [replaceLoop, replaceStep, h]
    | some p =>
      obtain ⟨h1, h2, h3, h4⟩ := stdFind_some _ _ _ _ h
      obtain ⟨k, rfl⟩ : ∃ k, p = done.length + k := ⟨p - done.length, by omega⟩
      have h3' := h3
      rw [← occursAt_drop, List.drop_left] at h3'
      have hlen := occursAt_length rest old ho k h3'
      have hpos : 0 < old.length := List.length_pos_iff.2 ho
      have hsplit := occursAt_split old rest k h3'
      obtain ⟨r, hr, hloop⟩ := ih (done ++ rest.take k ++ new) (rest.drop (k + old.length)) (by simp; omega)
      refine ⟨rest.take k ++ new ++ r, ?_, ?_⟩
      · have hs := Replaced.step (old := old) (new := new) (a := rest.take k) (b := rest.drop (k + old.length)) (r := r)
          (by
            intro q hq
            rw [← hsplit]
            intro hoc
            have hq' : q < k := by simp at hq; omega
            have := h4 (done.length + q) (by omega) (by omega)
            rw [← occursAt_drop, List.drop_left] at this
            exact this hoc) hr
        rwa [← hsplit] at hs
      · intro fuel hf
        obtain ⟨f, rfl⟩ : ∃ f, fuel = f + 1 := ⟨fuel - 1, by omega⟩
        simp only [replaceLoop, replaceStep, h]
        have e1 : (done ++ rest).take (done.length + k) ++ new ++ (done ++ rest).drop (done.length + k + old.length) =
            (done ++ rest.take k ++ new) ++ rest.drop (k + old.length) := by
          rw [List.take_length_add_append, Nat.add_assoc, List.drop_length_add_append]
        have e2 : done.length + k + new.length = (done ++ rest.take k ++ new).length := by
          simp; omega
        rw [e1, e2, hloop f (by omega)]
        simp

/-- **C38**, Replace with a non-empty pattern: terminates and the result is the left-to-right replacement. -/
theorem C38_replace_partial (s old new : List α) (ho : old ≠ []) :
    ∃ r, Replaced old new s r ∧ ∀ fuel, s.length + 1 ≤ fuel → replaceLoop old new fuel (s, 0) = some r := by
  obtain ⟨r, h1, h2⟩ := replaceLoop_spec old new ho s.length [] s (Nat.le_refl _)
  exact ⟨r, h1, by simpa using h2⟩

/-- The specification determines the result. -/
theorem Replaced.unique {old new : List α} (ho : old ≠ []) {s r : List α} (h : Replaced old new s r) :
    ∀ {r'}, Replaced old new s r' → r = r' := by
  induction h with
  | done hn =>
    intro r' h'
    cases h' with
    | done _ => rfl
    | step hf hr => exact absurd (by unfold OccursAt; rw [List.append_assoc, List.drop_left]; exact List.prefix_append _ _) (hn _)
  | @step a b r hf hr ih =>
    intro r' h'
    generalize hs : a ++ old ++ b = s at h'
    cases h' with
    | done hn =>
      subst hs
      exact absurd (by unfold OccursAt; rw [List.append_assoc, List.drop_left]; exact List.prefix_append _ _) (hn a.length)
    | @step a' b' r2 hf' hr' =>
      have o1 : OccursAt old (a ++ old ++ b) a.length := by
        unfold OccursAt; rw [List.append_assoc, List.drop_left]; exact List.prefix_append _ _
      have o2 : OccursAt old (a' ++ old ++ b') a'.length := by
        unfold OccursAt; rw [List.append_assoc, List.drop_left]; exact List.prefix_append _ _
      have l : a.length = a'.length := by
        rcases Nat.lt_trichotomy a.length a'.length with h | h | h
        · exact absurd (hs ▸ o1) (hf' _ h)
        · exact h
        · exact absurd (hs ▸ o2) (hf _ h)
      rw [List.append_assoc, List.append_assoc] at hs
      obtain ⟨e1, e2⟩ := List.append_inj hs l
      obtain ⟨_, e3⟩ := List.append_inj e2 rfl
      subst e1; subst e3
      rw [ih hr']

/-- **C38 is violated**: replacing the empty pattern never terminates, for every string. -/
theorem C38_replace_empty_violated (s new : List α) : ∀ fuel, replaceLoop [] new fuel (s, 0) = none := by
  have key : ∀ fuel (s : List α) (pos : Nat), pos ≤ s.length → replaceLoop [] new fuel (s, pos) = none := by
    intro fuel
    induction fuel with
    | zero => intros; rfl
    | succ n ih =>
      intro s pos hp
      have : stdFind s [] pos = some pos := by
        unfold stdFind
        rw [if_pos hp]
        cases s.drop pos <;> simp [findAt]
      simp only [replaceLoop, replaceStep, this]
      apply ih
      simp; omega
  intro fuel
  exact key fuel s 0 (Nat.zero_le _)

/-- Removing a single character, as used for UUID texts: `Replace(" ", "")` is a filter. -/
theorem replace_single (c : α) (s : List α) :
    ∀ fuel, s.length + 1 ≤ fuel → replaceLoop [c] [] fuel (s, 0) = some (s.filter (· ≠ c)) := by
  have hne : [c] ≠ [] := by simp
  obtain ⟨r, h1, h2⟩ := C38_replace_partial s [c] [] hne
  have : r = s.filter (· ≠ c) := by
    have nomem : ∀ s : List α, (∀ q, q < s.length → ¬ OccursAt [c] s q) → c ∉ s := by
      intro s hn hm
      obtain ⟨a, b, rfl⟩ := List.append_of_mem hm
      apply hn a.length (by simp)
      unfold OccursAt; rw [List.drop_left]; exact ⟨b, rfl⟩
    induction h1 with
    | @done s hn =>
      have := nomem s (fun q _ => hn q)
      rw [List.filter_eq_self.2]
      intro x hx; simp; rintro rfl; exact this hx
    | @step a b r hf hr ih =>
      have ha : c ∉ a := by
        intro hm
        obtain ⟨u, v, rfl⟩ := List.append_of_mem hm
        apply hf u.length (by simp)
        unfold OccursAt
        simp only [List.append_assoc, List.drop_left]
        exact ⟨v ++ ([c] ++ b), rfl⟩
      have e : a.filter (· ≠ c) = a := by
        rw [List.filter_eq_self.2]
        intro x hx; simp; rintro rfl; exact ha hx
      obtain ⟨_, hb1, hb2⟩ := C38_replace_partial b [c] [] hne
      rw [List.filter_append, List.filter_append, e]
      have := ih (fun fuel hfu => by
        rw [hb2 fuel hfu, hr.unique hne hb1])
      rw [this]
      simp
  subst this
  exact h2

example : replaceLoop " ".toList "".toList 100 ("09 E9 5D".toList, 0) = some "09E95D".toList ∧
    replaceLoop "aa".toList "b".toList 100 ("aaaxaa".toList, 0) = some "baxb".toList := by decide

/-! ### Trim -/

theorem trimLeft_eq (blank : α → Bool) (s : List α) : trimLeft blank s = s.dropWhile blank := by
  unfold trimLeft
  induction s with
  | nil => rfl
  | cons c t ih =>
    rw [List.findIdx?_cons, List.dropWhile_cons]
    cases hb : blank c with
    | false => simp
    | true =>
      simp only [Bool.not_true, Bool.false_eq_true, if_false, if_true]
      cases hf : t.findIdx? (fun c => !blank c) with
      | none => simp [hf] at ih ⊢; exact ih
      | some p => simp [hf] at ih ⊢; exact ih

theorem lastNotBlank_take (blank : α → Bool) (s : List α) : ∀ n, n ≤ s.length →
    (match lastNotBlank blank s n with | some p => s.take (p+1) | none => []) =
      ((s.take n).reverse.dropWhile blank).reverse := by
  intro n
  induction n with
  | zero => intro _; simp [lastNotBlank]
  | succ n ih =>
    intro hn
    have hget : s[n]? = some s[n] := List.getElem?_eq_getElem (by omega)
    have e : s.take (n+1) = s.take n ++ [s[n]] := by
      rw [List.take_succ, hget]; rfl
    unfold lastNotBlank
    rw [hget]
    simp only
    rw [e, List.reverse_append, List.reverse_singleton, List.singleton_append, List.dropWhile_cons]
    cases hb : blank s[n] with
    | false => simp only [Bool.false_eq_true, if_false, List.reverse_cons, List.reverse_reverse]; exact e
    | true => simp only [if_true]; exact ih (by omega)

/-- **C38**, Trim removes exactly the leading and trailing blanks: the result is what is left after
dropping blanks from both ends. -/
theorem C38_trim (blank : α → Bool) (s : List α) :
    trim blank s = ((s.dropWhile blank).reverse.dropWhile blank).reverse := by
  unfold trim trimRight
  rw [trimLeft_eq]
  have := lastNotBlank_take blank (s.dropWhile blank) _ (Nat.le_refl _)
  rw [List.take_length] at this
  rw [← this]
  cases lastNotBlank blank (List.dropWhile blank s) (List.dropWhile blank s).length <;> rfl

/-- **C38**, Trim in other words: the string is blanks ++ result ++ blanks, and the result neither starts
nor ends with a blank. -/
theorem C38_trim_spec (blank : α → Bool) (s : List α) :
    ∃ pre post, s = pre ++ trim blank s ++ post ∧ (∀ c ∈ pre, blank c = true) ∧ (∀ c ∈ post, blank c = true) ∧
      (∀ c, (trim blank s).head? = some c → blank c = false) ∧
      (∀ c, (trim blank s).getLast? = some c → blank c = false) := by
  rw [C38_trim]
  generalize hm : s.dropWhile blank = m
  refine ⟨s.takeWhile blank, (m.reverse.takeWhile blank).reverse, ?_, ?_, ?_, ?_, ?_⟩
  · rw [List.append_assoc, ← List.reverse_append, List.takeWhile_append_dropWhile, List.reverse_reverse, ← hm,
      List.takeWhile_append_dropWhile]
  · intro c hc
    have := List.all_takeWhile (p := blank) (l := s)
    exact (List.all_eq_true.1 this) c hc
  · intro c hc
    have := List.all_takeWhile (p := blank) (l := m.reverse)
    exact (List.all_eq_true.1 this) c (by simpa using hc)
  · intro c hc
    have hx : (m.reverse.takeWhile blank ++ m.reverse.dropWhile blank) = m.reverse :=
      List.takeWhile_append_dropWhile
    have hmm : m = (m.reverse.dropWhile blank).reverse ++ (m.reverse.takeWhile blank).reverse := by
      rw [← List.reverse_append, hx, List.reverse_reverse]
    have hh : m.head? = some c := by
      rw [hmm, List.head?_append, hc]; rfl
    rw [← hm] at hh
    have := List.head?_dropWhile_not blank s
    rw [hh] at this
    simpa using this
  · intro c hc
    rw [List.getLast?_reverse] at hc
    have := List.head?_dropWhile_not blank m.reverse
    rw [hc] at this
    simpa using this

example : trim (fun c => c == ' ' || c == '\t') "  a b\t".toList = "a b".toList := by decide

/-! ### Slices, Insert, Delete, Reverse, EndsWith -/

/-- **C38**, slices: `Left`, `Mid`, `Right` for strings without surrogates. -/
theorem C38_slices (s : List α) (i n : Nat) :
    leftC s n = s.take n ∧ midC s i n = (s.drop i).take n ∧ rightC s n = s.drop (s.length - n) := by
  refine ⟨rfl, ?_, ?_⟩
  · unfold midC; split
    · rename_i h; rw [List.drop_of_length_le h, List.take_nil]
    · rfl
  · unfold rightC; split
    · rename_i h; rw [Nat.sub_eq_zero_of_le h]; rfl
    · rfl

/-- A UTF-16 string without surrogates. -/
def NoSurrogate (s : List (BitVec 16)) : Prop := ∀ u ∈ s, isLow u = false ∧ isHigh u = false

theorem trimLeftInvalid_id (s : List (BitVec 16)) (h : NoSurrogate s) : trimLeftInvalid s = s := by
  cases s with
  | nil => rfl
  | cons u t => simp [trimLeftInvalid, (h u List.mem_cons_self).1]

theorem trimRightInvalid_id (s : List (BitVec 16)) (h : NoSurrogate s) : trimRightInvalid s = s := by
  unfold trimRightInvalid
  cases hl : s.getLast? with
  | none => simp only; rw [List.getLast?_eq_none_iff] at hl; exact hl.symm
  | some u => simp [(h u (List.mem_of_getLast? hl)).2]

/-- The UTF-16 slices coincide with the plain ones when there are no surrogates. -/
theorem C38_slices_utf16 (s : List (BitVec 16)) (h : NoSurrogate s) (i n : Nat) :
    left s n = leftC s n ∧ mid s i n = midC s i n ∧ right s n = rightC s n := by
  have hsub : ∀ t : List (BitVec 16), (∀ u ∈ t, u ∈ s) → NoSurrogate t := fun t ht u hu => h u (ht u hu)
  refine ⟨?_, ?_, ?_⟩
  · exact trimRightInvalid_id _ (hsub _ fun u hu => List.mem_of_mem_take hu)
  · unfold mid midC
    split
    · rfl
    · have hn := hsub ((s.drop i).take n) fun u hu => List.mem_of_mem_drop (List.mem_of_mem_take hu)
      rw [trimLeftInvalid_id _ hn, trimRightInvalid_id _ hn]
  · unfold right rightC
    split
    · rfl
    · exact trimLeftInvalid_id _ (hsub _ fun u hu => List.mem_of_mem_drop hu)

/-- Well-formed UTF-16: every high surrogate is followed by a low one and every low one is preceded by a high one. -/
def wellFormed16 : List (BitVec 16) → Bool
  | [] => true
  | [u] => !isHigh u && !isLow u
  | u :: v :: t => if isHigh u then isLow v && wellFormed16 t else !isLow u && wellFormed16 (v :: t)

theorem high_not_low (u : BitVec 16) (h : isHigh u = true) : isLow u = false := by
  simp only [isHigh, isLow, Bool.and_eq_true, decide_eq_true_eq, Bool.and_eq_false_iff, decide_eq_false_iff_not,
    BitVec.le_def] at *
  simp at h ⊢
  omega

theorem low_not_high (u : BitVec 16) (h : isLow u = true) : isHigh u = false := by
  cases hh : isHigh u with
  | false => rfl
  | true => rw [high_not_low u hh] at h; exact absurd h (by decide)

/-- Cutting a well-formed string anywhere leaves at most one orphan at the cut, which `Left` removes:
`Left` of a well-formed string is well-formed, and it loses nothing else. -/
theorem C38_left_wellformed (n : Nat) (s : List (BitVec 16)) (h : wellFormed16 s = true) :
    wellFormed16 (left s n) = true ∧ (left s n = s.take n ∨ ∃ u, isHigh u = true ∧ s.take n = left s n ++ [u]) := by
  have key : ∀ (m : Nat) (s : List (BitVec 16)), s.length ≤ m → wellFormed16 s = true → ∀ n,
      (wellFormed16 (s.take n) = true) ∨
        ∃ p u, isHigh u = true ∧ wellFormed16 p = true ∧ s.take n = p ++ [u] := by
    intro m
    induction m using Nat.strongRecOn with
    | ind m ih =>
      intro s hl hs n
      match s, n with
      | [], n => left; simp [wellFormed16]
      | _ :: _, 0 => left; simp [wellFormed16]
      | [u], n+1 => left; simpa [wellFormed16] using hs
      | u :: v :: t, n+1 =>
        unfold wellFormed16 at hs
        cases hu : isHigh u with
        | true =>
          simp [hu] at hs
          cases n with
          | zero => right; exact ⟨[], u, hu, rfl, by simp⟩
          | succ n =>
            simp only [List.length_cons] at hl
            rcases ih (m-2) (by omega) t (by omega) hs.2 n with h1 | ⟨p, w, h1, h2, h3⟩
            · left
              simp only [List.take_succ_cons]
              unfold wellFormed16
              simp [hu, hs.1, h1]
            · right
              refine ⟨u :: v :: p, w, h1, ?_, by simp [h3]⟩
              unfold wellFormed16; simp [hu, hs.1, h2]
        | false =>
          simp [hu] at hs
          simp only [List.length_cons] at hl
          rcases ih (m-1) (by omega) (v :: t) (by simp; omega) hs.2 n with h1 | ⟨p, w, h1, h2, h3⟩
          · left
            simp only [List.take_succ_cons]
            cases htk : (v :: t).take n with
            | nil => simp [wellFormed16, hu, hs.1]
            | cons a b => rw [htk] at h1; unfold wellFormed16; simp [hu, hs.1, h1]
          · right
            refine ⟨u :: p, w, h1, ?_, by simp [h3]⟩
            cases p with
            | nil => simp [wellFormed16, hu, hs.1]
            | cons a b => unfold wellFormed16; simp [hu, hs.1, h2]
  have lastwf : ∀ (m : Nat) (s : List (BitVec 16)), s.length ≤ m → wellFormed16 s = true →
      ∀ u, s.getLast? = some u → isHigh u = false := by
    intro m
    induction m using Nat.strongRecOn with
    | ind m ih =>
      intro s hl hs w hw
      match s with
      | [] => simp at hw
      | [u] => simp at hw; subst hw; simp [wellFormed16] at hs; exact hs.1
      | u :: v :: t =>
        unfold wellFormed16 at hs
        simp only [List.length_cons] at hl
        cases hu : isHigh u with
        | true =>
          simp [hu] at hs
          cases t with
          | nil => simp at hw; subst hw; exact low_not_high _ hs.1
          | cons a b =>
            exact ih (m-2) (by omega) (a :: b) (by omega) hs.2 w (by simpa [List.getLast?_cons_cons] using hw)
        | false =>
          simp [hu] at hs
          exact ih (m-1) (by omega) (v :: t) (by simp; omega) hs.2 w (by simpa [List.getLast?_cons_cons] using hw)
  rcases key s.length s (Nat.le_refl _) h n with h1 | ⟨p, u, h1, h2, h3⟩
  · have : left s n = s.take n := by
      unfold left trimRightInvalid
      cases hl : (s.take n).getLast? with
      | none => simp only; rw [List.getLast?_eq_none_iff] at hl; exact hl.symm
      | some w => simp [lastwf _ _ (Nat.le_refl _) h1 w hl]
    rw [this]; exact ⟨h1, .inl rfl⟩
  · have : left s n = p := by
      unfold left trimRightInvalid
      rw [h3]; simp [h1]
    rw [this]; exact ⟨h2, .inr ⟨u, h1, h3⟩⟩

example : wellFormed16 [0x61, 0xD83D, 0xDE00, 0x62] = true ∧ left [0x61, 0xD83D, 0xDE00, 0x62] 2 = [0x61] := by decide

/-- **C38**, Insert then Delete of what was inserted gives the original string back. -/
theorem C38_insert_delete (s src : List α) (pos : Nat) (hpos : pos ≤ s.length) :
    delete (insert s pos src) pos src.length = s := by
  by_cases h : pos < s.length
  · unfold insert delete
    rw [if_pos h, if_pos (by simp; omega)]
    have e : (List.take pos s).length = pos := by simp; omega
    rw [List.append_assoc, List.take_append_of_le_length (by omega), List.take_of_length_le (by omega),
      List.drop_append, List.drop_of_length_le (by omega), e,
      Nat.add_sub_cancel_left, List.drop_left, List.nil_append, List.take_append_drop]
  · have hp : pos = s.length := by omega
    subst hp
    unfold insert delete
    rw [if_neg h]
    split
    · rw [List.take_left, List.drop_of_length_le (by simp), List.append_nil]
    · rename_i h2
      have : src = [] := by
        simp at h2; exact h2
      simp [this]

/-- **C38**, Delete then Insert of the deleted slice gives the original string back. -/
theorem C38_delete_insert (s : List α) (pos len : Nat) :
    insert (delete s pos len) pos ((s.drop pos).take len) = s := by
  by_cases h : pos < s.length
  · have e : (List.take pos s).length = pos := by simp; omega
    have cut : s.take pos ++ ((s.drop pos).take len ++ s.drop (pos + len)) = s := by
      rw [← List.drop_drop, List.take_append_drop, List.take_append_drop]
    unfold insert delete
    rw [if_pos h]
    split
    · have hA : ∀ (a b : List α), a.length = pos → (a ++ b).take pos = a ∧ (a ++ b).drop pos = b := by
        intro a b ha; subst ha; exact ⟨List.take_left, List.drop_left⟩
      rw [(hA _ _ e).1, (hA _ _ e).2, List.append_assoc, cut]
    · rename_i h2
      have hd : s.drop (pos + len) = [] := by
        apply List.drop_of_length_le
        simp at h2; omega
      rw [hd] at cut ⊢
      simpa using cut
  · unfold insert delete
    rw [if_neg h, if_neg h, List.drop_of_length_le (by omega)]
    simp

example : insert "abef".toList 2 "cd".toList = "abcdef".toList ∧ delete "abcdef".toList 2 2 = "abef".toList := by decide

theorem makeReverseAux_eq : ∀ (n : Nat) (pre midl post : List α), midl.length = n →
    makeReverseAux (pre ++ midl ++ post) pre.length (pre.length + midl.length - 1) = pre ++ midl.reverse ++ post := by
  intro n
  induction n using Nat.strongRecOn with
  | ind n ih =>
    intro pre midl post hl
    unfold makeReverseAux
    match midl with
    | [] => rw [dif_neg (by simp)]; simp
    | [a] => rw [dif_neg (by simp)]; simp
    | a :: b :: t =>
      obtain ⟨m, z, hz⟩ : ∃ m z, b :: t = m ++ [z] := ⟨(b::t).dropLast, (b::t).getLast (by simp), (List.dropLast_concat_getLast (by simp)).symm⟩
      rw [hz] at hl ⊢
      rw [dif_pos (by simp)]
      have g1 : (pre ++ a :: (m ++ [z]) ++ post)[pre.length]? = some a := by simp
      have g2 : (pre ++ a :: (m ++ [z]) ++ post)[pre.length + (a :: (m ++ [z])).length - 1]? = some z := by
        rw [show pre ++ a :: (m ++ [z]) ++ post = (pre ++ a :: m) ++ (z :: post) by simp]
        rw [List.getElem?_append_right (by simp)]
        have : pre.length + (a :: (m ++ [z])).length - 1 - (pre ++ a :: m).length = 0 := by simp
        rw [this]; rfl
      rw [g1, g2]
      simp only
      have e : ((pre ++ a :: (m ++ [z]) ++ post).set pre.length z).set (pre.length + (a :: (m ++ [z])).length - 1) a =
          (pre ++ [z]) ++ m ++ ([a] ++ post) := by
        have s1 : (pre ++ a :: (m ++ [z]) ++ post).set pre.length z = (pre ++ z :: m) ++ (z :: post) := by
          rw [show pre ++ a :: (m ++ [z]) ++ post = pre ++ (a :: (m ++ (z :: post))) by simp]
          rw [List.set_append_right _ _ (Nat.le_refl _)]
          simp
        rw [s1, List.set_append_right _ _ (by simp)]
        have : pre.length + (a :: (m ++ [z])).length - 1 - (pre ++ z :: m).length = 0 := by simp
        rw [this]; simp
      rw [e]
      have := ih m.length (by simp at hl; omega) (pre ++ [z]) m ([a] ++ post) rfl
      rw [show (pre ++ [z]).length = pre.length + 1 by simp] at this
      rw [show pre.length + (a :: (m ++ [z])).length - 1 - 1 = pre.length + 1 + m.length - 1 by simp, this]
      simp

/-- **C38**, MakeReverse. -/
theorem C38_reverse (s : List α) : makeReverse s = s.reverse := by
  unfold makeReverse
  split
  · have := makeReverseAux_eq s.length [] s [] rfl
    simpa using this
  · rename_i h
    have : s = [] := by simpa using h
    subst this; rfl

/-- **C38**, EndsWith. -/
theorem C38_endsWith (s suffix : List α) : endsWith s suffix = true ↔ ∃ t, s = t ++ suffix := by
  unfold endsWith
  simp only [Bool.and_eq_true, decide_eq_true_eq]
  constructor
  · rintro ⟨h1, h2⟩
    refine ⟨s.take (s.length - suffix.length), ?_⟩
    rw [List.take_of_length_le (by simp; omega)] at h2
    conv => rhs; rhs; rw [← h2]
    rw [List.take_append_drop]
  · rintro ⟨t, rfl⟩
    simp

/-! ### C39 Split -/

theorem splitStep_notfound (s ch : List α) (hlen : s.length < npos) (last : Nat) (result : List (List α))
    (hl : last < npos) (hs : s ≠ []) (hf : find s ch (last + 1) = none) :
    ∃ r, splitStep s ch (last, result) = .inl (0, r) := by
  unfold splitStep
  simp only [if_pos hl]
  have h1 : (last + 1) % 2^64 = last + 1 := Nat.mod_eq_of_lt (by unfold npos at hl; omega)
  rw [h1, hf]
  have hp : (toSize none + 1) % 2^64 = 0 := by decide
  have : ¬ (0 = s.length) := by
    intro h; exact hs (List.length_eq_zero_iff.1 h.symm)
  rw [hp, if_neg this]
  exact ⟨_, rfl⟩

theorem splitStep_found (s ch : List α) (hlen : s.length < npos) (last p : Nat) (result : List (List α))
    (hl : last < npos) (hf : find s ch (last + 1) = some p) (hp : p < s.length) (hlp : last ≤ p) (hp0 : p ≠ 0) :
    splitStep s ch (last, result) =
      if p + 1 = s.length then .inr (result ++ [midC s last (p - last)])
      else .inl (p + 1, result ++ [midC s last (p - last)]) := by
  unfold splitStep
  simp only [if_pos hl]
  have h1 : (last + 1) % 2^64 = last + 1 := Nat.mod_eq_of_lt (by unfold npos at hl; omega)
  rw [h1, hf]
  simp only [toSize]
  have h2 : (p + 1) % 2^64 = p + 1 := Nat.mod_eq_of_lt (by unfold npos at hlen; omega)
  have h3 : (p + 2^64 - last) % 2^64 = p - last := by
    rw [show p + 2^64 - last = (p - last) + 2^64 by omega, Nat.add_mod_right, Nat.mod_eq_of_lt (by unfold npos at hlen; omega)]
  simp only [h2, h3, if_pos hp0]

/-- **C39 is violated**: `Split` never returns on a non-empty string that does not end with the separator
(for instance "a,b" or "a"), and keeps appending to its result. -/
theorem C39_split_diverges_violated (s ch : List α) (hs : s ≠ []) (hlen : s.length < npos)
    (hch : ch ≠ []) (hend : ¬ OccursAt ch s (s.length - 1)) :
    ∀ fuel, split s ch fuel = none := by
  have key : ∀ fuel last result, last ≤ s.length → splitLoop s ch fuel (last, result) = none := by
    intro fuel
    induction fuel with
    | zero => intros; rfl
    | succ n ih =>
      intro last result hl
      unfold splitLoop
      cases hf : find s ch (last + 1) with
      | none =>
        obtain ⟨r, hr⟩ := splitStep_notfound s ch hlen last result (by omega) hs hf
        rw [hr]
        exact ih 0 r (Nat.zero_le _)
      | some p =>
        obtain ⟨h1, h2, h3⟩ := (C38_find s ch hch (last + 1) p).1 hf
        have hp := occursAt_ne_nil s ch hch p h2
        have hne : ¬ (p + 1 = s.length) := by
          intro h
          apply hend
          rwa [show s.length - 1 = p by omega]
        rw [splitStep_found s ch hlen last p result (by omega) hf hp (by omega) (by omega), if_neg hne]
        exact ih (p+1) _ (by omega)
  intro fuel
  exact key fuel 0 [] (Nat.zero_le _)

/-- Concrete instance of the violation. -/
example : (∀ fuel, split "1,2".toList ",".toList fuel = none) ∧ (∀ fuel, split "abc".toList ",".toList fuel = none) :=
  ⟨C39_split_diverges_violated _ _ (by decide) (by decide) (by decide) (by decide),
   C39_split_diverges_violated _ _ (by decide) (by decide) (by decide) (by decide)⟩

/-- Every piece followed by the separator. -/
def joinEach (c : α) (pieces : List (List α)) : List α := pieces.flatMap (· ++ [c])

theorem splitLoop_pieces (c : α) (pieces : List (List α)) (hp : ∀ p ∈ pieces, p ≠ [] ∧ c ∉ p) (hne : pieces ≠ []) :
    ∀ (done : List α) (result : List (List α)), (done ++ joinEach c pieces).length < npos →
      ∀ fuel, pieces.length ≤ fuel →
        splitLoop (done ++ joinEach c pieces) [c] fuel (done.length, result) = some (result ++ pieces) := by
  induction pieces with
  | nil => exact absurd rfl hne
  | cons p ps ih =>
    intro done result hlen fuel hf
    obtain ⟨f, rfl⟩ : ∃ f, fuel = f + 1 := ⟨fuel - 1, by simp at hf; omega⟩
    obtain ⟨hp1, hp2⟩ := hp p List.mem_cons_self
    have hp1' : 0 < p.length := List.length_pos_iff.2 hp1
    generalize hs : done ++ joinEach c (p :: ps) = s at hlen ⊢
    have hs' : s = done ++ (p ++ (c :: joinEach c ps)) := by rw [← hs]; simp [joinEach]
    have hslen : s.length = done.length + (p.length + (1 + (joinEach c ps).length)) := by
      rw [hs']; simp; omega
    have hfind : find s [c] (done.length + 1) = some (done.length + p.length) := by
      rw [C38_find s [c] (by simp)]
      refine ⟨by omega, ?_, ?_⟩
      · unfold OccursAt
        rw [hs', ← List.drop_drop, List.drop_left, List.drop_left]
        exact ⟨joinEach c ps, rfl⟩
      · intro q h1 h2 ho
        obtain ⟨t, ht⟩ := ho
        have hq : s[q]? = some c := by
          have : (s.drop q)[0]? = some c := by rw [← ht]; rfl
          simpa using this
        rw [hs', List.getElem?_append_right (by omega), List.getElem?_append_left (by omega)] at hq
        exact hp2 (List.mem_of_getElem? hq)
    unfold splitLoop
    rw [splitStep_found s [c] hlen done.length (done.length + p.length) result (by omega) hfind (by omega) (by omega) (by omega)]
    have hmid : midC s done.length (done.length + p.length - done.length) = p := by
      rw [(C38_slices s _ _).2.1, hs', List.drop_left, Nat.add_sub_cancel_left, List.take_left]
    rw [hmid]
    cases ps with
    | nil =>
      rw [if_pos (by rw [hslen]; simp [joinEach]; omega)]
    | cons p2 ps2 =>
      have hj : 0 < (joinEach c (p2 :: ps2)).length := by simp [joinEach]; omega
      rw [if_neg (by omega)]
      have hs2 : s = (done ++ p ++ [c]) ++ joinEach c (p2 :: ps2) := by rw [hs']; simp
      have := ih (fun q hq => hp q (List.mem_cons_of_mem _ hq)) (by simp) (done ++ p ++ [c]) (result ++ [p])
        (by rw [← hs2]; exact hlen) f (by simp at hf ⊢; omega)
      rw [← hs2] at this
      simp only
      rw [show done.length + p.length + 1 = (done ++ p ++ [c]).length by simp; omega, this]
      simp

/-- **C39**, the part that holds: a string made of non-empty pieces *each followed by the separator*
("a,b,c,") is split into its pieces. Missing: strings not ending with the separator (diverges, see above)
and empty pieces. -/
theorem C39_split_partial (c : α) (pieces : List (List α)) (hne : pieces ≠ [])
    (hp : ∀ p ∈ pieces, p ≠ [] ∧ c ∉ p) (hlen : (joinEach c pieces).length < npos) (fuel : Nat)
    (hf : pieces.length ≤ fuel) : split (joinEach c pieces) [c] fuel = some pieces := by
  have := splitLoop_pieces c pieces hp hne [] [] (by simpa using hlen) fuel hf
  simpa [split] using this

example : split "a,bc,d,".toList ",".toList 5 = some ["a".toList, "bc".toList, "d".toList] := by decide

/-- The empty string is split into one empty piece. -/
theorem C39_split_empty (ch : List α) (fuel : Nat) (h : 0 < fuel) : split [] ch fuel = some [[]] := by
  obtain ⟨f, rfl⟩ : ∃ f, fuel = f + 1 := ⟨fuel - 1, by omega⟩
  have hfind : find ([] : List α) ch 1 = none := by
    rw [C38_find_none]
    by_cases h : ch = []
    · exact .inl h
    · right; intro q _ ho; have := occursAt_ne_nil _ _ h q ho; simp at this
  unfold split splitLoop splitStep
  simp only [show (0:Nat) < npos by decide, if_true]
  rw [show (0 + 1) % 2^64 = 1 by decide, hfind]
  simp [toSize, npos, midC]

end Verif.Str
