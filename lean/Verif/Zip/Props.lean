import Verif.Zip.Spec
import Verif.Zip.Remove

/-!
# Properties of the ZIP archive (C03 – C08)
-/

namespace Verif.Zip

open Spec

variable {codec : Codec} {c : Bool}

theorem entryName_eq (p : List Byte) : entryName p = normPath p := rfl

theorem storedLength_eq (a : Add) : storedLength codec c a = (rawOf codec c a).length := by
  cases c <;> rfl

theorem locals_length_sum (as : List Add) : (locals codec c as).length =
    (as.map (fun a => 30 + a.path.length + storedLength codec c a)).sum := by
  induction as with
  | nil => rfl
  | cons a t ih => rw [locals_cons_length, ih, List.map_cons, List.sum_cons, storedLength_eq, locLen]

theorem centrals_length_sum (as : List Add) : (centrals codec c 0 as).length =
    (as.map (fun a => 46 + a.path.length)).sum := by
  rw [centrals_length_off]
  induction as with
  | nil => rfl
  | cons a t ih => rw [List.foldr_cons, ih, List.map_cons, List.sum_cons]

theorem sum_size (as : List Add) :
    (as.map (fun a => 76 + 2 * a.path.length + storedLength codec c a)).sum =
      (locals codec c as).length + (centrals codec c 0 as).length := by
  rw [locals_length_sum, centrals_length_sum]
  induction as with
  | nil => rfl
  | cons a t ih => simp only [List.map_cons, List.sum_cons, ih]; omega

theorem Spec.InLimits.limits {as : List Add} (h : InLimits codec c as) : Limits codec c as := by
  have h1 := h.size
  have h2 := h.notEnd as.length
  rw [sum_size] at h1
  rw [List.take_length, ← locals_length_sum] at h2
  exact ⟨h.entries, h.names, by rw [archive_length]; omega, h2⟩

theorem Spec.InLimits.left {l1 l2 : List Add} (h : InLimits codec c (l1 ++ l2)) : InLimits codec c l1 where
  entries := by have := h.entries; simp at this; omega
  names := fun a ha => h.names a (by simp [ha])
  size := by have := h.size; simp only [List.map_append, List.sum_append] at this; omega
  notEnd := fun k => by
    have := h.notEnd (min k l1.length)
    rw [List.take_append_of_le_length (Nat.min_le_right _ _)] at this
    rcases Nat.le_total k l1.length with hk | hk
    · rwa [Nat.min_eq_left hk] at this
    · rw [Nat.min_eq_right hk] at this
      rwa [List.take_of_length_le hk, ← List.take_length (l := l1)]

theorem firsts_prefix (as : List Add) : ∀ kept, ∃ l, firsts kept as = kept ++ l := by
  induction as with
  | nil => intro kept; exact ⟨[], by simp [firsts]⟩
  | cons a t ih =>
    intro kept
    rw [firsts]
    split
    · exact ih kept
    · obtain ⟨l, hl⟩ := ih (kept ++ [a])
      exact ⟨a :: l, by simpa using hl⟩

/-- No two of the files have the same name. -/
abbrev Names (as : List Add) : Prop := as.Pairwise (fun x y => normPath x.path ≠ normPath y.path)

theorem firsts_names (as : List Add) : ∀ kept, Names kept → Names (firsts kept as) := by
  induction as with
  | nil => intro kept h; exact h
  | cons a t ih =>
    intro kept h
    rw [firsts]
    split
    · exact ih kept h
    · rename_i hn
      refine ih _ (List.pairwise_append.2 ⟨h, by simp, ?_⟩)
      intro x hx y hy he
      rw [List.mem_singleton] at hy
      subst hy
      exact hn (List.mem_map.2 ⟨x, hx, he⟩)

/-- Splitting a list at the first file with a name. -/
theorem split_first {as : List Add} {p : List Byte} (h : p ∈ as.map (fun b => normPath b.path)) :
    ∃ l1 a l2, as = l1 ++ a :: l2 ∧ normPath a.path = p ∧ ∀ b ∈ l1, normPath b.path ≠ normPath a.path := by
  induction as with
  | nil => simp at h
  | cons x t ih =>
    by_cases hx : normPath x.path = p
    · exact ⟨[], x, t, rfl, hx, by simp⟩
    · rw [List.map_cons, List.mem_cons] at h
      obtain ⟨l1, a, l2, h1, h2, h3⟩ := ih (h.resolve_left (fun e => hx e.symm))
      refine ⟨x :: l1, a, l2, by rw [h1]; rfl, h2, ?_⟩
      intro b hb
      rcases List.mem_cons.1 hb with rfl | hb
      · rw [h2]; exact hx
      · exact h3 b hb

theorem addErr_eq (a : Add) : addErr (rawOf codec c a) = if storedLength codec c a = 0 then .failed else .noError := by
  rw [storedLength_eq, addErr]

/-- All additions, from an archive with some files. -/
theorem addAll_eq (fuel : Nat) (as : List Add) : ∀ kept, InLimits codec c (firsts kept as) →
    (firsts kept as).length + 1 ≤ fuel →
    addAll codec fuel ⟨bytesOf codec c kept, true, c⟩ as =
      .ok (results codec c kept as, ⟨bytesOf codec c (firsts kept as), true, c⟩) := by
  induction as with
  | nil => intro kept _ _; rfl
  | cons a t ih =>
    intro kept h hf
    obtain ⟨l, hl⟩ := firsts_prefix (a :: t) kept
    have hk : InLimits codec c kept := by rw [hl] at h; exact h.left
    have hfk : kept.length + 1 ≤ fuel := by rw [hl, List.length_append] at hf; omega
    rw [addAll]
    by_cases hm : entryName a.path ∈ kept.map (fun b => entryName b.path)
    · rw [firsts, if_pos hm] at h hf ⊢
      rw [results, if_pos hm]
      obtain ⟨l1, b, l2, h1, h2, h3⟩ := split_first hm
      have hkl := hk.limits
      rw [h1] at hkl
      have := addFile_duplicate hkl (fuel := fuel) (by rw [h1] at hfk; simp at hfk; omega) h3 (b := a) h2.symm c
      rw [← h1] at this
      rw [this, ok_bind]
      simp only
      rw [ih kept h hf]
      rfl
    · rw [firsts, if_neg hm] at h hf ⊢
      rw [results, if_neg hm]
      have hne : ∀ b ∈ kept, normPath b.path ≠ normPath a.path := fun b hb he =>
        hm (List.mem_map.2 ⟨b, hb, he⟩)
      rw [addFile_new hk.limits hfk hne, ok_bind]
      simp only
      rw [ih _ h hf, ok_bind, addErr_eq]

/-- The archive after adding files to a new one. -/
theorem addAll_new (fuel : Nat) (as : List Add) (h : InLimits codec c (firsts [] as)) (hf : as.length + 1 ≤ fuel)
    (hl : (firsts [] as).length ≤ as.length) :
    addAll codec fuel (openNewWrite c) as = .ok (results codec c [] as, ⟨bytesOf codec c (firsts [] as), true, c⟩) :=
  addAll_eq fuel as [] h (by omega)

theorem firsts_length (as : List Add) : ∀ kept, (firsts kept as).length ≤ kept.length + as.length := by
  induction as with
  | nil => intro kept; simp [firsts]
  | cons a t ih =>
    intro kept
    rw [firsts]
    split
    · have := ih kept; simp; omega
    · have := ih (kept ++ [a]); simp at this ⊢; omega

theorem firsts_subset (as : List Add) : ∀ kept a, a ∈ firsts kept as → a ∈ kept ∨ a ∈ as := by
  induction as with
  | nil => intro kept a h; exact .inl h
  | cons x t ih =>
    intro kept a h
    rw [firsts] at h
    split at h
    · rcases ih _ _ h with h | h
      · exact .inl h
      · exact .inr (by simp [h])
    · rcases ih _ _ h with h | h
      · rcases List.mem_append.1 h with h | h
        · exact .inl h
        · exact .inr (by simp at h; simp [h])
      · exact .inr (by simp [h])

/-- C03: whatever sequence of files is added to a new archive (within the limits), every file that has been
taken is read back with its content: from the archive object itself and from its bytes opened again. -/
theorem C03_add_then_read (hcodec : Lossless codec) (fuel : Nat) (as : List Add) (h : InLimits codec c (firsts [] as))
    (hf : as.length + 1 ≤ fuel) :
    ∃ z, addAll codec fuel (openNewWrite c) as = .ok (results codec c [] as, z) ∧
      ∀ a ∈ firsts [] as, ∀ garbage,
        getFile codec fuel z.data garbage (entryName a.path) = .ok (.noError, some a.content) ∧
        getFile codec fuel (openRead z.data).data garbage (entryName a.path) = .ok (.noError, some a.content) := by
  have hl := firsts_length as []
  rw [List.length_nil, Nat.zero_add] at hl
  refine ⟨_, addAll_new fuel as h hf hl, ?_⟩
  intro a ha garbage
  obtain ⟨l1, l2, he⟩ := List.append_of_mem ha
  have hnames := firsts_names as [] List.Pairwise.nil
  have hlim := h.limits
  rw [he] at hnames hlim hl
  have hne : ∀ b ∈ l1, normPath b.path ≠ normPath a.path := fun b hb =>
    (List.pairwise_append.1 hnames).2.2 b hb a (by simp)
  have := getFile_found hlim (fuel := fuel) (by simp at hl; omega) hne (fun _ => hcodec a.content) garbage
  rw [he, bytesOf_ne (by simp)]
  exact ⟨this, this⟩

/-- The same without compression, where nothing is assumed of zlib. -/
theorem C03_add_then_read_stored (fuel : Nat) (as : List Add) (h : InLimits codec false (firsts [] as))
    (hf : as.length + 1 ≤ fuel) :
    ∃ z, addAll codec fuel (openNewWrite false) as = .ok (results codec false [] as, z) ∧
      ∀ a ∈ firsts [] as, ∀ garbage,
        getFile codec fuel z.data garbage (entryName a.path) = .ok (.noError, some a.content) := by
  have hl := firsts_length as []
  rw [List.length_nil, Nat.zero_add] at hl
  refine ⟨_, addAll_new fuel as h hf hl, ?_⟩
  intro a ha garbage
  obtain ⟨l1, l2, he⟩ := List.append_of_mem ha
  have hnames := firsts_names as [] List.Pairwise.nil
  have hlim := h.limits
  rw [he] at hnames hlim hl
  have hne : ∀ b ∈ l1, normPath b.path ≠ normPath a.path := fun b hb =>
    (List.pairwise_append.1 hnames).2.2 b hb a (by simp)
  rw [he, bytesOf_ne (by simp)]
  exact getFile_found hlim (fuel := fuel) (by simp at hl; omega) hne (fun h => absurd h (by decide)) garbage

/-- Two files in a new archive. -/
def sampleAdds : List Add :=
  [⟨[0x61#8], [1#8, 2#8, 3#8], 7, 1, 2⟩, ⟨[0x62#8, 0x5C#8, 0x63#8], [4#8], 9, 1, 2⟩, ⟨[0x61#8], [5#8], 9, 1, 2⟩]

example : firsts [] sampleAdds = sampleAdds.take 2 := by decide

theorem sample_inLimits (codec : Codec) : InLimits codec false (firsts [] sampleAdds) := by
  have e : firsts [] sampleAdds = sampleAdds.take 2 := by decide
  rw [e]
  refine ⟨by decide, by decide, by simp [sampleAdds, storedLength], ?_⟩
  intro k
  rcases k with _ | _ | _ | k <;> simp [sampleAdds, storedLength]

example (codec : Codec) : results codec false [] sampleAdds = [.noError, .noError, .invalidArg] := by rfl

theorem walk_from (stale : Byte) (fuel : Nat) : ∀ (l2 l1 : List Add) (a : Add) (rounds : Nat),
    Limits codec c (l1 ++ a :: l2) → Names (l1 ++ a :: l2) → l1.length + l2.length + 1 ≤ fuel → l2.length + 1 ≤ rounds →
    walk fuel (archive codec c (l1 ++ a :: l2)) stale rounds (normPath a.path) =
      .ok (l2.map (fun b => normPath b.path), .false_) := by
  intro l2
  induction l2 with
  | nil =>
    intro l1 a rounds h hn hf hr
    have hne : ∀ b ∈ l1, normPath b.path ≠ normPath a.path := fun b hb =>
      (List.pairwise_append.1 hn).2.2 b hb a (by simp)
    obtain ⟨r, rfl⟩ : ∃ r, rounds = r + 1 := ⟨rounds - 1, by simp at hr; omega⟩
    have hf1 : l1.length + 1 ≤ fuel := by simp at hf; omega
    rw [walk, getNextFile_after h hf1 hne, ok_bind]
    rfl
  | cons b t ih =>
    intro l1 a rounds h hn hf hr
    have hne : ∀ b ∈ l1, normPath b.path ≠ normPath a.path := fun b hb =>
      (List.pairwise_append.1 hn).2.2 b hb a (by simp)
    obtain ⟨r, rfl⟩ : ∃ r, rounds = r + 1 := ⟨rounds - 1, by simp at hr; omega⟩
    have hf1 : l1.length + 1 ≤ fuel := by simp at hf; omega
    rw [walk, getNextFile_after h hf1 hne, ok_bind]
    have e : l1 ++ a :: b :: t = (l1 ++ [a]) ++ b :: t := by simp
    rw [e] at h hn ⊢
    have := ih (l1 ++ [a]) b r h hn (by simp at hf ⊢; omega) (by simp at hr; omega)
    simp only [if_true]
    rw [this]
    rfl

/-- C04: walking an archive with `GetNextFile` lists the files that have been added, each exactly once and in the
order in which they were added, and then ends (an archive without files ends with `kVCOMError_Failed`). -/
theorem C04_listing (fuel : Nat) (as : List Add) (h : InLimits codec c (firsts [] as)) (hf : as.length + 1 ≤ fuel)
    (stale : Byte) (rounds : Nat) (hr : as.length + 1 ≤ rounds) :
    ∃ z, addAll codec fuel (openNewWrite c) as = .ok (results codec c [] as, z) ∧
      walk fuel z.data stale rounds [] = .ok ((firsts [] as).map (fun a => entryName a.path),
        if as = [] then .failed else .false_) := by
  have hl := firsts_length as []
  rw [List.length_nil, Nat.zero_add] at hl
  refine ⟨_, addAll_new fuel as h hf hl, ?_⟩
  obtain ⟨r, rfl⟩ : ∃ r, rounds = r + 1 := ⟨rounds - 1, by omega⟩
  have hnames := firsts_names as [] List.Pairwise.nil
  have hlim := h.limits
  cases as with
  | nil => rfl
  | cons x t =>
    rw [if_neg (by simp)]
    obtain ⟨l, hl'⟩ := firsts_prefix t [x]
    have e : firsts [] (x :: t) = x :: l := by
      rw [firsts, if_neg (by simp)]; exact hl'
    rw [e] at hnames hlim hl ⊢
    rw [bytesOf_ne (by simp)]
    rw [walk, getNextFile_first hlim, ok_bind]
    have := walk_from stale fuel l [] x r hlim hnames (by simp at hl hf ⊢; omega) (by simp at hl hr; omega)
    simp only [if_true]
    rw [List.nil_append] at this
    rw [this]
    rfl

theorem C04_names_once (as : List Add) : ((firsts [] as).map (fun a => entryName a.path)).Nodup := by
  rw [List.Nodup, List.pairwise_map]
  exact firsts_names as [] List.Pairwise.nil

example (codec : Codec) (stale : Byte) : ∃ z, addAll codec 9 (openNewWrite false) sampleAdds =
    .ok ([.noError, .noError, .invalidArg], z) ∧
    walk 9 z.data stale 9 [] = .ok ([[0x61#8], [0x62#8, 0x2F#8, 0x63#8]], .false_) :=
  C04_listing 9 sampleAdds (sample_inLimits codec) (by decide) stale 9 (by decide)

/-- C05: a file whose name is already used is refused with `kVCOMError_InvalidArg`, and not a byte of the archive
changes. -/
theorem C05_duplicate_refused (fuel : Nat) (as : List Add) (h : InLimits codec c (firsts [] as)) (hf : as.length + 1 ≤ fuel)
    (b : Add) (hb : ∃ a ∈ as, entryName a.path = entryName b.path) :
    ∃ z, addAll codec fuel (openNewWrite c) as = .ok (results codec c [] as, z) ∧
      addFile codec fuel z b = .ok (.invalidArg, z) := by
  have hl := firsts_length as []
  rw [List.length_nil, Nat.zero_add] at hl
  refine ⟨_, addAll_new fuel as h hf hl, ?_⟩
  have hmem : ∀ (l kept : List Add) (p : List Byte), (p ∈ kept.map (fun b => normPath b.path) ∨ p ∈ l.map (fun b => normPath b.path)) →
      p ∈ (firsts kept l).map (fun b => normPath b.path) := by
    intro l
    induction l with
    | nil => intro kept p hp; simpa [firsts] using hp
    | cons x t ih =>
      intro kept p hp
      rw [firsts]
      by_cases hx : entryName x.path ∈ kept.map (fun b => entryName b.path)
      · rw [if_pos hx]
        refine ih kept p ?_
        rcases hp with hp | hp
        · exact .inl hp
        · rw [List.map_cons, List.mem_cons] at hp
          rcases hp with rfl | hp
          · exact .inl hx
          · exact .inr hp
      · rw [if_neg hx]
        refine ih _ p ?_
        rcases hp with hp | hp
        · exact .inl (by rw [List.map_append]; exact List.mem_append_left _ hp)
        · rw [List.map_cons, List.mem_cons] at hp
          rcases hp with rfl | hp
          · exact .inl (by simp)
          · exact .inr hp
  obtain ⟨a, ha, hab⟩ := hb
  obtain ⟨l1, x, l2, h1, h2, h3⟩ := split_first (hmem as [] (normPath b.path) (.inr (List.mem_map.2 ⟨a, ha, hab⟩)))
  have hlim := h.limits
  rw [h1] at hlim hl
  have := addFile_duplicate hlim (fuel := fuel) (by simp at hl; omega) h3 (b := b) h2.symm c
  rw [h1]
  exact this

/-- C05: outside write mode nothing is added. -/
theorem C05_read_mode (codec : Codec) (fuel : Nat) (bytes : List Byte) (a : Add) :
    addFile codec fuel (openRead bytes) a = .ok (.notInitialized, openRead bytes) := rfl

/-- C03 is violated for files of which nothing is stored: the call reports `kVCOMError_Failed`, yet the file is in
the archive. -/
theorem C03_empty_file_violated (codec : Codec) (fuel : Nat) (as : List Add) (a : Add)
    (h : InLimits codec false (firsts [] as)) (hf : as.length + 1 ≤ fuel) (ha : a.content = [])
    (hnew : ∀ b ∈ as, entryName b.path ≠ entryName a.path) :
    ∃ z z', addAll codec fuel (openNewWrite false) as = .ok (results codec false [] as, z) ∧
      addFile codec fuel z a = .ok (.failed, z') ∧ z'.data.length ≥ z.data.length + 76 := by
  have hl := firsts_length as []
  rw [List.length_nil, Nat.zero_add] at hl
  have hne : ∀ b ∈ firsts [] as, normPath b.path ≠ normPath a.path := by
    intro b hb
    rcases firsts_subset as [] b hb with hb | hb
    · simp at hb
    · exact hnew b hb
  have := addFile_new h.limits (fuel := fuel) (by omega) hne
  have hraw : rawOf codec false a = [] := ha
  rw [hraw] at this
  refine ⟨_, _, addAll_new fuel as h hf hl, this, ?_⟩
  simp only
  rw [bytesOf_ne (by simp), archive_length, locals_append, List.length_append, locals_cons_length]
  have hc : (centrals codec false 0 (firsts [] as ++ [a])).length =
      (centrals codec false 0 (firsts [] as)).length + (46 + a.path.length) := by
    simp only [centrals_length_sum, List.map_append, List.sum_append, List.map_cons, List.map_nil, List.sum_cons,
      List.sum_nil, Nat.add_zero]
  rw [hc, locLen, hraw]
  by_cases hk : firsts [] as = []
  · rw [hk]; simp [bytesOf, locals, centrals]; omega
  · rw [bytesOf_ne hk, archive_length]; omega

/-- C06: asking for a file that has not been added is answered with `kVCOMError_False` and without any
information. -/
theorem C06_info_missing (fuel : Nat) (as : List Add) (h : InLimits codec c (firsts [] as)) (hf : as.length + 1 ≤ fuel)
    (path : List Byte) (hp : ∀ a ∈ as, entryName a.path ≠ path) :
    ∃ z, addAll codec fuel (openNewWrite c) as = .ok (results codec c [] as, z) ∧
      getFileInfo fuel z.data path = .ok (.false_, none) := by
  have hl := firsts_length as []
  rw [List.length_nil, Nat.zero_add] at hl
  refine ⟨_, addAll_new fuel as h hf hl, getFileInfo_missing h.limits (by omega) ?_⟩
  intro b hb
  rcases firsts_subset as [] b hb with hb | hb
  · simp at hb
  · exact hp b hb

/-- C06 is violated by `GetFile`: what it does for a missing file is decided by uninitialised memory. If that
happens to hold the information of another file of the archive — what an earlier call has left on the stack —
`GetFile` reports success with the content of that other file. -/
theorem C06_get_missing_violated (hcodec : Lossless codec) (fuel : Nat) (as : List Add) (h : InLimits codec c (firsts [] as))
    (hf : as.length + 1 ≤ fuel) (path : List Byte) (hp : ∀ a ∈ as, entryName a.path ≠ path) (a : Add)
    (ha : a ∈ firsts [] as) :
    ∃ z garbage, addAll codec fuel (openNewWrite c) as = .ok (results codec c [] as, z) ∧
      getFileInfo fuel z.data (entryName a.path) = .ok (.noError, some garbage) ∧
      getFile codec fuel z.data garbage path = .ok (.noError, some a.content) := by
  have hl := firsts_length as []
  rw [List.length_nil, Nat.zero_add] at hl
  obtain ⟨l1, l2, he⟩ := List.append_of_mem ha
  have hnames := firsts_names as [] List.Pairwise.nil
  have hlim := h.limits
  rw [he] at hnames hlim hl
  have hne : ∀ b ∈ l1, normPath b.path ≠ normPath a.path := fun b hb =>
    (List.pairwise_append.1 hnames).2.2 b hb a (by simp)
  have hf1 : l1.length + 1 ≤ fuel := by simp at hl; omega
  have hmiss := getFileInfo_missing h.limits (fuel := fuel) (path := path) (by have := firsts_length as []; simp at this; omega) (by
    intro b hb
    rcases firsts_subset as [] b hb with hb | hb
    · simp at hb
    · exact hp b hb)
  obtain ⟨g, hfound⟩ : ∃ g, getFileInfo fuel (archive codec c (l1 ++ a :: l2)) (normPath a.path) = .ok (.noError, some g) :=
    ⟨_, getFileInfo_found hlim hf1 hne⟩
  have hget := getFile_found hlim hf1 hne (fun _ => hcodec a.content) g
  refine ⟨_, g, addAll_new fuel as h hf (by have := firsts_length as []; simpa using this), ?_, ?_⟩
  · rw [he, bytesOf_ne (by simp)]; exact hfound
  · rw [he] at hmiss
    rw [bytesOf_ne (by simp)] at hmiss
    rw [he, bytesOf_ne (by simp)]
    rw [getFile, hfound, ok_bind] at hget
    rw [getFile, hmiss, ok_bind]
    exact hget

/-- C06 is violated by `GetFile` in the worst way when the uninitialised offset and size lie outside the archive:
memory outside the buffer is read. -/
theorem C06_get_missing_ub_violated (fuel : Nat) (as : List Add) (h : InLimits codec c (firsts [] as))
    (hf : as.length + 1 ≤ fuel) (path : List Byte) (hp : ∀ a ∈ as, entryName a.path ≠ path) :
    ∃ z, addAll codec fuel (openNewWrite c) as = .ok (results codec c [] as, z) ∧
      ∀ garbage : FileInfo, z.data.length ≤ garbage.offset → garbage.offset + 26 < 4294967296 → 0 < garbage.compressedSize →
        getFile codec fuel z.data garbage path = .error .ub := by
  obtain ⟨z, hz, hi⟩ := C06_info_missing fuel as h hf path hp
  refine ⟨z, hz, ?_⟩
  intro g h1 h2 h3
  rw [getFile, hi, ok_bind]
  simp only [Option.getD_none]
  have a1 : adv g.offset 26 = g.offset + 26 := adv_eq h2
  have a2 : adv (g.offset + 26) (0 + 0) = g.offset + 26 := adv_eq (by omega)
  simp only [a1, readShort_end (show z.data.length ≤ g.offset + 26 by omega), ok_bind, a2]
  rw [readFromFile, readAt, if_neg (by omega), if_neg (by omega)]
  rfl

theorem locals_nil : (locals codec c []).length = 0 := rfl

theorem limits_nil (codec : Codec) (c : Bool) : Limits codec c [] :=
  ⟨by decide, by simp, by rw [archive_length]; show 0 + 0 + 22 + 100 < _; decide, by rw [locals_nil]; decide⟩

theorem firsts_all (as : List Add) : ∀ kept, Names (kept ++ as) → firsts kept as = kept ++ as := by
  induction as with
  | nil => intro kept _; simp [firsts]
  | cons a t ih =>
    intro kept h
    rw [firsts, if_neg, ih]
    · simp
    · simpa using h
    · intro hm
      obtain ⟨b, hb, he⟩ := List.mem_map.1 hm
      exact (List.pairwise_append.1 h).2.2 b hb a (by simp) he

/-- The central directory position read from bytes that end with an end record. -/
theorem getCentralDirPosition_tail {pre : List Byte} {n s o : Nat} (hpre : pre ≠ [])
    (hl : pre.length + 22 < 4294967296) (hc : EndClear n s o) :
    getCentralDirPosition (pre ++ endHeader (plainInfo n s o)) = .ok o := by
  have hlen : (pre ++ endHeader (plainInfo n s o)).length = pre.length + 22 := by
    rw [List.length_append, endHeader_length]
  have h0 : 0 < pre.length := List.length_pos_iff.2 hpre
  obtain ⟨p, hp⟩ : ∃ p, pre.length = p + 1 := ⟨pre.length - 1, by omega⟩
  have hd : (pre ++ endHeader (plainInfo n s o)).drop (p + 1) = endHeader (plainInfo n s o) := by
    rw [← hp, List.drop_left]
  have hs : searchStart (pre ++ endHeader (plainInfo n s o)) = p + 18 := by
    rw [searchStart, hlen]; omega
  have hd16 : (pre ++ endHeader (plainInfo n s o)).drop (p + 1 + 16) = le4 o ++ le2 0 := by
    rw [← List.drop_drop, hd]; rfl
  unfold getCentralDirPosition
  rw [if_neg (by omega), hs, searchEnd_archive hd (by omega) hc, ok_bind]
  simp only
  rw [adv_eq (by omega), readLong_cur hd16 (by omega), ok_bind]
  simp only
  rw [Nat.mod_eq_of_lt hc.offset]

theorem getEndOfCentralDirPosition_tail {pre : List Byte} {n s o : Nat} (hpre : pre ≠ [])
    (hl : pre.length + 22 < 4294967296) (hc : EndClear n s o) :
    getEndOfCentralDirPosition (pre ++ endHeader (plainInfo n s o)) = .ok pre.length := by
  have hlen : (pre ++ endHeader (plainInfo n s o)).length = pre.length + 22 := by
    rw [List.length_append, endHeader_length]
  have h0 : 0 < pre.length := List.length_pos_iff.2 hpre
  obtain ⟨p, hp⟩ : ∃ p, pre.length = p + 1 := ⟨pre.length - 1, by omega⟩
  have hd : (pre ++ endHeader (plainInfo n s o)).drop (p + 1) = endHeader (plainInfo n s o) := by
    rw [← hp, List.drop_left]
  have hs : searchStart (pre ++ endHeader (plainInfo n s o)) = p + 18 := by
    rw [searchStart, hlen]; omega
  unfold getEndOfCentralDirPosition
  rw [if_neg (by omega), hs, searchEnd_archive hd (by omega) hc, ok_bind, hp]

/-- An archive whose central directory position reads as 0 is filled as if it were a new one. -/
theorem addFile_position_zero {data : List Byte} {ed : Nat} (fuel : Nat) (b : Add) (h1 : getCentralDirPosition data = .ok 0)
    (h2 : getEndOfCentralDirPosition data = .ok ed) :
    addFile codec fuel ⟨data, true, c⟩ b = addFile codec fuel (openNewWrite c) b := by
  unfold addFile
  simp only [openNewWrite, Bool.true_eq_false, if_false, getFileCentralHeaderPosition, h1, h2, getCentralDirPosition_nil,
    show getEndOfCentralDirPosition [] = .ok 0 from rfl, ok_bind, true_or, if_true, ne_eq, not_true_eq_false, false_and,
    and_false]

/-- C07 is violated: removing the last file of an archive that holds others succeeds, and all the other files are
gone from the listing as well. -/
theorem C07_remove_violated (fuel : Nat) (as : List Add) (a : Add) (h : InLimits codec c (as ++ [a])) (has : as ≠ [])
    (hn : ((as ++ [a]).map (fun x => entryName x.path)).Nodup) (hf : as.length + 2 ≤ fuel)
    (hsize : 3 * ((as ++ [a]).map (fun x => 76 + 2 * x.path.length + storedLength codec c x)).sum + 200 < 4294967296)
    (same : List Byte → List Byte → Bool) (stale : Byte) (garbage : FileInfo) :
    ∃ z z', addAll codec fuel (openNewWrite c) (as ++ [a]) = .ok (results codec c [] (as ++ [a]), z) ∧
      removeFile same fuel z stale garbage (entryName a.path) = .ok (.noError, z') ∧
      ∀ fuel' rounds, walk fuel' z'.data stale (rounds + 1) [] = .ok ([], .false_) := by
  have hnames : Names (as ++ [a]) := by rw [List.Nodup, List.pairwise_map] at hn; exact hn
  have hfi : firsts [] (as ++ [a]) = as ++ [a] := firsts_all _ [] hnames
  obtain ⟨mid, n, s, hr, h1, h2, h3⟩ := removeFile_last h.limits hnames hf same stale garbage
  have hadd := addAll_eq (codec := codec) (c := c) fuel (as ++ [a]) [] (by rw [hfi]; exact h) (by rw [hfi]; simp; omega)
  rw [hfi, bytesOf_ne (as := as ++ [a]) (by simp)] at hadd
  refine ⟨_, _, hadd, hr, ?_⟩
  intro fuel' rounds
  have hal := archive_length (codec := codec) (c := c) (as ++ [a])
  rw [sum_size] at hsize
  have hp := locals_pos (codec := codec) (c := c) has
  have hne := h.left.notEnd as.length
  rw [List.take_length, ← locals_length_sum] at hne
  have hll : (locals codec c (as ++ [a])).length = (locals codec c as).length + locLen codec c a := by
    rw [locals_append, List.length_append, locals_cons_length]; rfl
  have hcd := getCentralDirPosition_tail (pre := archive codec c (as ++ [a]) ++ mid) (n := n) (s := s)
    (o := (locals codec c as).length) (fun e => by have := congrArg List.length e; rw [List.length_append, List.length_nil] at this; omega)
    (by rw [List.length_append]; omega) ⟨h1, h2, by omega, hne⟩
  rw [List.append_assoc] at hcd
  have hd := drop_local (codec := codec) (c := c) as [] a
  have hd' : (archive codec c (as ++ [a]) ++ (mid ++ endHeader (plainInfo n s (locals codec c as).length))).drop
      (locals codec c as).length = le4 sigLocal ++ ((archive codec c (as ++ [a])).drop ((locals codec c as).length + 4) ++
        (mid ++ endHeader (plainInfo n s (locals codec c as).length))) := by
    rw [List.drop_append_of_le_length (by omega), ← List.drop_drop, hd, localHeader_drop0, List.append_assoc]
    rfl
  simp only
  rw [walk, getNextFile, hcd, ok_bind, if_neg (by omega)]
  simp only [ne_eq, not_true_eq_false, if_false, ok_bind]
  rw [readLong_cur hd' (by simp only [List.length_append, endHeader_length]; omega), ok_bind]
  rfl

/-- C07 is violated in read mode: removing a file reports success whatever the archive is (if it can be read at
all) and changes nothing. -/
theorem C07_read_mode_violated (same : List Byte → List Byte → Bool) (fuel : Nat) (bytes : List Byte) (stale : Byte)
    (garbage : FileInfo) (path : List Byte) (r : Err × Zip)
    (h : removeFile same fuel (openRead bytes) stale garbage path = .ok r) : r = (.noError, openRead bytes) := by
  unfold removeFile at h
  obtain ⟨cpos, -, h⟩ := bind_ok h
  split at h
  · exact (Except.ok.inj h).symm
  · obtain ⟨_, -, h⟩ := bind_ok h
    obtain ⟨_, -, h⟩ := bind_ok h
    obtain ⟨_, -, h⟩ := bind_ok h
    obtain ⟨_, -, h⟩ := bind_ok h
    obtain ⟨_, -, h⟩ := bind_ok h
    obtain ⟨_, -, h⟩ := bind_ok h
    obtain ⟨_, -, h⟩ := bind_ok h
    obtain ⟨ai, -, h⟩ := bind_ok h
    cases ai with
    | none => exact absurd h (by simp)
    | some ai =>
      obtain ⟨_, -, h⟩ := bind_ok h
      obtain ⟨_, -, h⟩ := bind_ok h
      obtain ⟨_, -, h⟩ := bind_ok h
      obtain ⟨_, -, h⟩ := bind_ok h
      exact (Except.ok.inj h).symm

/-- C07 is violated for a name that is not in the archive: success is reported. -/
theorem C07_missing_violated (fuel : Nat) (as : List Add) (h : InLimits codec c (firsts [] as)) (hf : as.length + 1 ≤ fuel)
    (path : List Byte) (hp : ∀ a ∈ as, entryName a.path ≠ path) (same : List Byte → List Byte → Bool) (stale : Byte)
    (garbage : FileInfo) :
    ∃ z, addAll codec fuel (openNewWrite c) as = .ok (results codec c [] as, z) ∧
      removeFile same fuel z stale garbage path = .ok (.noError, z) := by
  have hl := firsts_length as []
  rw [List.length_nil, Nat.zero_add] at hl
  refine ⟨_, addAll_new fuel as h hf hl, ?_⟩
  rw [removeFile, position_none h.limits (by omega), ok_bind, if_pos rfl]
  intro b hb
  rcases firsts_subset as [] b hb with hb | hb
  · simp at hb
  · exact hp b hb

/-- C07 for an archive with one file (the general statement is violated): after removing it the archive lists
nothing, and another file can be added and is then the only one. -/
theorem C07_remove_only_partial (fuel : Nat) (a b : Add) (h : InLimits codec c [a]) (hf : 2 ≤ fuel)
    (hsize : 3 * (76 + 2 * a.path.length + storedLength codec c a) + 200 < 4294967296)
    (same : List Byte → List Byte → Bool) (stale : Byte) (garbage : FileInfo) :
    ∃ z z', addAll codec fuel (openNewWrite c) [a] = .ok (results codec c [] [a], z) ∧
      removeFile same fuel z stale garbage (entryName a.path) = .ok (.noError, z') ∧
      (∀ fuel' rounds, walk fuel' z'.data stale (rounds + 1) [] = .ok ([], .failed)) ∧
      addFile codec fuel z' b = addFile codec fuel (openNewWrite c) b := by
  have hnames : Names [a] := List.pairwise_singleton _ _
  have hlim := h.limits
  obtain ⟨mid, n, s, hr, h1, h2, h3⟩ := removeFile_last (as := []) hlim hnames hf same stale garbage
  rw [List.nil_append] at hr h3
  have hadd := addAll_eq (codec := codec) (c := c) fuel [a] [] h hf
  rw [show firsts [] [a] = [a] from rfl, bytesOf_ne (as := [a]) (by simp)] at hadd
  refine ⟨_, _, hadd, hr, ?_⟩
  have hal := archive_length (codec := codec) (c := c) [a]
  have hs := sum_size (codec := codec) (c := c) [a]
  rw [List.map_cons, List.map_nil, List.sum_cons, List.sum_nil] at hs
  have hcd := getCentralDirPosition_tail (pre := archive codec c [a] ++ mid) (n := n) (s := s)
    (o := (locals codec c []).length) (fun e => by have := congrArg List.length e; rw [List.length_append, List.length_nil] at this; omega)
    (by rw [List.length_append]; omega) ⟨h1, h2, by rw [locals_nil]; decide, by rw [locals_nil]; decide⟩
  rw [List.append_assoc, show (locals codec c []).length = 0 from rfl] at hcd
  constructor
  · intro fuel' rounds
    simp only
    rw [walk, getNextFile, show (locals codec c []).length = 0 from rfl, hcd, ok_bind, if_pos rfl]
    rfl
  · have hed := getEndOfCentralDirPosition_tail (pre := archive codec c [a] ++ mid) (n := n) (s := s)
      (o := (locals codec c []).length) (fun e => by have := congrArg List.length e; rw [List.length_append, List.length_nil] at this; omega)
      (by rw [List.length_append]; omega) ⟨h1, h2, by rw [locals_nil]; decide, by rw [locals_nil]; decide⟩
    rw [List.append_assoc, show (locals codec c []).length = 0 from rfl] at hed
    rw [show (locals codec c []).length = 0 from rfl]
    exact addFile_position_zero fuel b hcd hed

/-- C03 is violated for an archive whose local part is exactly 0x06054b50 bytes long: the file is added with
success, but the archive then lists nothing, and the next file replaces everything. -/
theorem C03_end_signature_violated (codec : Codec) (c : Bool) (fuel : Nat) (hf : 1 ≤ fuel) (a b : Add)
    (ha : 30 + a.path.length + storedLength codec c a = 0x06054b50) (hn : a.path.length ≤ 1024)
    (stale : Byte) :
    ∃ z, addFile codec fuel (openNewWrite c) a = .ok (.noError, z) ∧
      (∀ fuel' rounds, walk fuel' z.data stale (rounds + 1) [] = .ok ([], .failed)) ∧
      addFile codec fuel z b = addFile codec fuel (openNewWrite c) b := by
  have hadd := addFile_new (limits_nil codec c) (a := a) hf (by simp)
  rw [List.nil_append, bytesOf_ne (as := [a]) (by simp), addErr_eq, if_neg (by omega)] at hadd
  refine ⟨_, hadd, ?_⟩
  have hll : (locals codec c [a]).length = sigEnd := by
    rw [locals_cons_length, locLen, ← storedLength_eq]; exact ha
  have hcl : (centrals codec c 0 [a]).length = 46 + a.path.length := by
    rw [centrals_length_sum]; simp
  have hal := archive_length (codec := codec) (c := c) [a]
  have hsig : sigEnd = 101010256 := rfl
  have hl : (archive codec c [a]).length < 4294967296 := by omega
  have hd := drop_end (codec := codec) (c := c) [a]
  obtain ⟨p, hp⟩ : ∃ p, (locals codec c [a]).length + (centrals codec c 0 [a]).length = p + 1 := ⟨_, (Nat.succ_pred (by omega)).symm⟩
  rw [hp, endOf, hll] at hd
  generalize archive codec c [a] = D at hd hal hl ⊢
  have hs : ∀ k, D.drop (p + 1 + k) = (endHeader (plainInfo [a].length (centrals codec c 0 [a]).length sigEnd)).drop k := by
    intro k; rw [← List.drop_drop, hd]
  have e17 : searchEnd D (p + 18) = searchEnd D (p + 17) := by
    refine searchEnd_step (hs 17) hl ?_
    simp only [plainInfo, BitVec.toNat_ofNat, sigEnd]; omega
  have e16 : searchEnd D (p + 17) = .ok (some (p + 17)) := searchEnd_found (hs 16) hl
  have hst : searchStart D = p + 18 := by unfold searchStart; omega
  have hcd : getCentralDirPosition D = .ok 0 := by
    unfold getCentralDirPosition
    rw [if_neg (by omega), hst, e17, e16, ok_bind]
    simp only
    rw [adv_eq (by omega), readLong_end (by omega)]
    rfl
  have hed : getEndOfCentralDirPosition D = .ok (p + 17) := by
    unfold getEndOfCentralDirPosition
    rw [if_neg (by omega), hst, e17, e16]
    rfl
  refine ⟨?_, addFile_position_zero fuel b hcd hed⟩
  intro fuel' rounds
  simp only
  rw [walk, getNextFile, hcd, ok_bind, if_pos rfl]
  rfl

/-- A file meeting the hypotheses of `C03_end_signature_violated`. -/
example (codec : Codec) (n : Nat) (h : n = 101010225) : 30 + [0x61#8].length +
    storedLength codec false ⟨[0x61#8], List.replicate n 0#8, 0, 0, 0⟩ = 0x06054b50 := by
  rw [storedLength, if_neg (by decide), List.length_replicate, h, List.length_singleton]

/-- C03 is violated for names longer than 1024 bytes: the file is added with success, but listing the archive
then writes outside a member array. -/
theorem C03_long_name_violated (codec : Codec) (c : Bool) (fuel : Nat) (hf : 1 ≤ fuel) (a : Add)
    (hn : 1024 < a.path.length) (hn2 : a.path.length < 65536) (hs0 : 0 < storedLength codec c a)
    (hs : storedLength codec c a < 100000000) (stale : Byte) :
    ∃ z, addFile codec fuel (openNewWrite c) a = .ok (.noError, z) ∧
      ∀ fuel' rounds, walk fuel' z.data stale (rounds + 1) [] = .error .ub := by
  have hadd := addFile_new (limits_nil codec c) (a := a) hf (by simp)
  rw [List.nil_append, bytesOf_ne (as := [a]) (by simp), addErr_eq, if_neg (by omega)] at hadd
  refine ⟨_, hadd, ?_⟩
  intro fuel' rounds
  have hll : (locals codec c [a]).length = 30 + a.path.length + storedLength codec c a := by
    rw [locals_cons_length, locLen, ← storedLength_eq]; rfl
  have hcl : (centrals codec c 0 [a]).length = 46 + a.path.length := by
    rw [centrals_length_sum]; simp
  have hal := archive_length (codec := codec) (c := c) [a]
  have hl : (archive codec c [a]).length < 4294967296 := by omega
  have hcd := getCentralDirPosition_tail (pre := locals codec c [a] ++ centrals codec c 0 [a]) (n := [a].length)
    (s := (centrals codec c 0 [a]).length) (o := (locals codec c [a]).length)
    (fun e => by have := congrArg List.length e; rw [List.length_append, List.length_nil] at this; omega)
    (by rw [List.length_append]; omega) ⟨by rw [List.length_singleton]; decide, by omega, by omega, by rw [sigEnd]; omega⟩
  rw [List.append_assoc] at hcd
  have hd := drop_centrals (codec := codec) (c := c) [a]
  rw [centrals, centrals, List.append_nil] at hd
  have hd0 : (archive codec c [a]).drop (locals codec c [a]).length = le4 sigCentral ++ ((central (newInfo codec c a 0)).drop 4 ++ endOf codec c [a]) := by
    rw [hd, central_drop0]
  have k28 := congrArg (List.drop 28) hd
  rw [List.drop_drop, central_drop28] at k28
  simp only
  rw [walk, getNextFile, show getCentralDirPosition (archive codec c [a]) = _ from hcd, ok_bind, if_neg (by omega)]
  simp only [ne_eq, not_true_eq_false, if_false, ok_bind]
  rw [readLong_cur hd0 hl, ok_bind]
  simp only [show sigCentral % 4294967296 = sigCentral from rfl, not_true_eq_false, if_false]
  rw [adv_eq (by omega), show (locals codec c [a]).length + 4 + 24 = (locals codec c [a]).length + 28 from rfl,
    readShort_cur k28 hl, ok_bind]
  simp only
  rw [newInfo_name, normPath_length, Nat.mod_eq_of_lt hn2, readName, if_neg (by omega)]
  rfl

/-- C04 is violated for a walk that goes on after a name that is not in the archive: it may succeed (here it
yields the first file, whose content has the right size). -/
theorem C04_unknown_name_violated : ∃ (a : Add) (path : List Byte), entryName a.path ≠ path ∧
    ∀ codec : Codec, ∃ z, addFile codec 9 (openNewWrite false) a = .ok (.noError, z) ∧
      ∀ stale, getNextFile 9 z.data stale path = .ok (.noError, entryName a.path) := by
  refine ⟨⟨[0x41#8], List.replicate 80 0#8, 0, 0, 0⟩, [0x6e#8, 0x6f#8], by decide, fun codec => ?_⟩
  have e : addFile codec 9 (openNewWrite false) ⟨[0x41#8], List.replicate 80 0#8, 0, 0, 0⟩ =
      addFile ⟨id, some⟩ 9 (openNewWrite false) ⟨[0x41#8], List.replicate 80 0#8, 0, 0, 0⟩ := rfl
  rw [e]
  refine ⟨_, rfl, fun stale => ?_⟩
  have key : ∀ stale : Byte, (match getNextFile 9 (match addFile ⟨id, some⟩ 9 (openNewWrite false)
      ⟨[0x41#8], List.replicate 80 0#8, 0, 0, 0⟩ with | .ok r => r.2.data | .error _ => []) stale [0x6e#8, 0x6f#8] with
      | .ok r => decide (r = (.noError, [0x41#8])) | .error _ => false) = true := by
    decide +kernel
  have := key stale
  split at this
  · rename_i r hr
    rw [of_decide_eq_true this] at hr
    exact hr
  · exact absurd this (by decide)

/-- Cases meeting the hypotheses of the violations. -/
example (codec : Codec) : InLimits codec false (sampleAdds.take 1 ++ [⟨[0x62#8], [4#8], 9, 1, 2⟩]) := by
  refine ⟨by decide, by decide, by simp [sampleAdds, storedLength], ?_⟩
  intro k
  rcases k with _ | _ | _ | k <;> simp [sampleAdds, storedLength]

example : ((sampleAdds.take 1 ++ [(⟨[0x62#8], [4#8], 9, 1, 2⟩ : Add)]).map (fun x => entryName x.path)).Nodup := by decide

example : ∀ a ∈ sampleAdds, entryName a.path ≠ [0x7A#8] := by decide

example : ∃ a ∈ sampleAdds, entryName a.path = entryName [0x62#8, 0x2F#8, 0x63#8] := by decide

/-- C08 is violated: `GetNextFile` with an extension never looks at the archive. It always reports success and
leaves the caller's name as it was, so a caller can neither find a file nor notice that there is none. -/
theorem C08_extension_violated (fuel : Nat) (data path extension outPath : List Byte) :
    getNextFileExt fuel data path extension outPath = .ok (.noError, outPath) := rfl

end Verif.Zip
