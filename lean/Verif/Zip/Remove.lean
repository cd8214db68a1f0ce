import Verif.Zip.Steps

/-!
# What `RemoveFile` does on an archive written by the library
-/

namespace Verif.Zip

variable {codec : Codec} {c : Bool}

/-- Bytes of the central headers written for the infos. -/
def headersLength (infos : List FileInfo) : Nat := (infos.map (fun i => 46 + i.name.length)).sum

/-- The loop collects at most one info per entry. -/
theorem removeLoop_ok (same : List Byte → List Byte → Bool) (path : List Byte) (stale : Byte) (garbage : FileInfo)
    (removed fuel : Nat) : ∀ (l2 l1 : List Add) (a : Add) (n : Nat) (found : Bool) (acc : List FileInfo),
      Limits codec c (l1 ++ a :: l2) → (l1 ++ a :: l2).Pairwise (fun x y => normPath x.path ≠ normPath y.path) →
      l1.length + l2.length + 2 ≤ fuel →
      ∃ infos, removeLoop same fuel (archive codec c (l1 ++ a :: l2)) path stale garbage removed n (normPath a.path) found acc =
          .ok infos ∧ headersLength infos ≤ headersLength acc + (centrals codec c 0 (a :: l2)).length := by
  intro l2
  induction l2 with
  | nil =>
    intro l1 a n found acc h hp hf
    have hne : ∀ b ∈ l1, normPath b.path ≠ normPath a.path := by
      intro b hb
      exact (List.pairwise_append.1 hp).2.2 b hb a (by simp)
    cases n with
    | zero => exact ⟨acc, rfl, by omega⟩
    | succ n =>
      have hf1 : l1.length + 1 ≤ fuel := by omega
      rw [removeLoop]
      simp only [getNextFile_after h hf1 hne stale, getFileInfo_found h hf1 hne, ok_bind, Option.getD_some]
      refine ⟨_, if_pos (by decide), ?_⟩
      rw [centrals, centrals, List.append_nil, central_length, newInfo_name _ _ a 0, normPath_length]
      cases same (normPath a.path) path
      · simp only [Bool.false_eq_true, if_false, headersLength, List.map_append, List.sum_append]
        cases found <;> simp [newInfo_name, normPath_length]
      · simp only [if_true]; omega
  | cons b t ih =>
    intro l1 a n found acc h hp hf
    have hne : ∀ b ∈ l1, normPath b.path ≠ normPath a.path := by
      intro x hx
      exact (List.pairwise_append.1 hp).2.2 x hx a (by simp)
    have hb : normPath b.path ≠ [] := normPath_ne_nil (h.names b (by simp)).1
    cases n with
    | zero => exact ⟨acc, rfl, by omega⟩
    | succ n =>
      have hf1 : l1.length + 1 ≤ fuel := by omega
      rw [removeLoop]
      simp only [getNextFile_after h hf1 hne stale, getFileInfo_found h hf1 hne, ok_bind, Option.getD_some]
      have e : l1 ++ a :: b :: t = (l1 ++ [a]) ++ b :: t := by simp
      rw [if_neg (show ¬ (if True then normPath b.path else []) = [] by simpa using hb)]
      rw [e] at h hp ⊢
      have hcl : (centrals codec c 0 (a :: b :: t)).length = 46 + a.path.length + (centrals codec c 0 (b :: t)).length := by
        rw [centrals_length_off, centrals_length_off, List.foldr_cons]
      cases hs : same (normPath a.path) path
      · simp only [Bool.false_eq_true, if_false, if_true]
        obtain ⟨infos, h1, h2⟩ := ih (l1 ++ [a]) b n found _ h hp (by simp at hf ⊢; omega)
        refine ⟨infos, h1, ?_⟩
        rw [hcl]
        refine Nat.le_trans h2 ?_
        simp only [headersLength, List.map_append, List.sum_append]
        cases found <;> simp [newInfo_name, normPath_length] <;> omega
      · simp only [if_true]
        obtain ⟨infos, h1, h2⟩ := ih (l1 ++ [a]) b n true acc h hp (by simp at hf ⊢; omega)
        exact ⟨infos, h1, by omega⟩

theorem localHeader_drop18 (i : FileInfo) (rest : List Byte) :
    (localHeader i ++ rest).drop 18 = le4 i.compressedSize ++ (localHeader i ++ rest).drop 22 := by
  simp [localHeader, le4, le2]

theorem removeEntry_eq (n s o l r : Nat) : (plainInfo n s o).removeEntry l r =
    plainInfo ((n + 65535) % 65536) ((s + 4294967296 - r) % 4294967296) ((o + 4294967296 - l) % 4294967296) := rfl

theorem plain_flatten (n s o : Nat) (infos : List FileInfo) :
    ((infos.map (centralHeader (plainInfo n s o))).flatten).length = headersLength infos := by
  induction infos with
  | nil => rfl
  | cons i t ih =>
    rw [List.map_cons, List.flatten_cons, List.length_append, ih, centralHeader_plain, central_length]
    simp [headersLength]

theorem bind_ok {α β : Type} {x : M α} {f : α → M β} {b : β} (h : x >>= f = .ok b) : ∃ a, x = .ok a ∧ f a = .ok b := by
  cases x with
  | error e => exact absurd h (by simp [bind, Except.bind])
  | ok a => exact ⟨a, rfl, h⟩

/-- The archive after `RemoveFile` of the last entry: the old bytes followed by others, and an end record that
still points to where the local header of the removed entry is in the old bytes. -/
theorem removeFile_last {as : List Add} {a : Add} (h : Limits codec c (as ++ [a]))
    (hp : (as ++ [a]).Pairwise (fun x y => normPath x.path ≠ normPath y.path)) {fuel : Nat}
    (hf : as.length + 2 ≤ fuel) (same : List Byte → List Byte → Bool) (stale : Byte) (garbage : FileInfo) :
    ∃ mid n s, removeFile same fuel ⟨archive codec c (as ++ [a]), true, c⟩ stale garbage (normPath a.path) =
        .ok (.noError, ⟨archive codec c (as ++ [a]) ++ (mid ++ endHeader (plainInfo n s (locals codec c as).length)), true, c⟩) ∧
      n < 19280 ∧ s < 88821760 ∧ mid.length ≤ 2 * (archive codec c (as ++ [a])).length := by
  have hne : ∀ b ∈ as, normPath b.path ≠ normPath a.path := by
    intro b hb
    exact (List.pairwise_append.1 hp).2.2 b hb a (by simp)
  have hsz := h.size
  have hl : (archive codec c (as ++ [a])).length < 4294967296 := by omega
  have hal := archive_length (codec := codec) (c := c) (as ++ [a])
  have hll : (locals codec c (as ++ [a])).length = (locals codec c as).length + locLen codec c a := by
    rw [locals_append, List.length_append, locals_cons_length]; rfl
  have hcl : (centrals codec c 0 (as ++ [a])).length = (centrals codec c 0 as).length + (46 + a.path.length) := by
    rw [centrals_append, List.length_append, centrals, centrals, List.append_nil, central_length, newInfo_name,
      normPath_length]
  have hcb := h.clear
  have hsize := hcb.size
  have hent := h.entries
  have hnl : a.path.length ≤ 1024 := (h.names a (by simp)).2.1
  have hloc : locLen codec c a = 30 + a.path.length + (rawOf codec c a).length := rfl
  have hcp : getFileCentralHeaderPosition fuel (archive codec c (as ++ [a])) (normPath a.path) =
      .ok ((locals codec c (as ++ [a])).length + (centrals codec c 0 as).length) := position_found h (by omega) hne
  have hlp : getFileLocalHeaderPosition fuel (archive codec c (as ++ [a])) (normPath a.path) =
      .ok (locals codec c as).length := localPosition_found h (by omega) hne
  -- the local header
  have hd := drop_local (codec := codec) (c := c) as [] a
  have k18 := congrArg (List.drop 18) hd
  rw [List.drop_drop, localHeader_drop18] at k18
  have k26 := congrArg (List.drop 26) hd
  rw [List.drop_drop, localHeader_drop26] at k26
  have k28 := drop_add k26 2 rfl
  have hname : (newInfo codec c a 0).name.length % 65536 = a.path.length := by
    rw [newInfo_name, normPath_length]; exact Nat.mod_eq_of_lt (by omega)
  have hcsize : (newInfo codec c a 0).compressedSize % 4294967296 = (rawOf codec c a).length :=
    Nat.mod_eq_of_lt (by rw [show (newInfo codec c a 0).compressedSize = (rawOf codec c a).length from rfl]; omega)
  have a18 : adv (locals codec c as).length 18 = (locals codec c as).length + 18 := adv_eq (by omega)
  have a22 : adv ((locals codec c as).length + 18 + 4) 4 = (locals codec c as).length + 26 := adv_eq (by omega)
  -- the central header
  have he := drop_entry (codec := codec) (c := c) as [] a
  generalize hP : (locals codec c (as ++ [a])).length + (centrals codec c 0 as).length = P at he hcp
  have hnl' : (newInfo codec c a (locals codec c as).length).name.length ≤ 1024 := by
    rw [newInfo_name, normPath_length]; exact hnl
  obtain ⟨-, -, r2, r3, r4, -, -, -, -, -⟩ := round_reads he hl hnl' rfl
  have a28 : adv P 28 = P + 28 := adv_eq (by omega)
  -- the loop
  have hloop : ∃ infos, (do
      let (e, first) ← getNextFile fuel (archive codec c (as ++ [a])) stale []
      removeLoop same fuel (archive codec c (as ++ [a])) (normPath a.path) stale garbage (locLen codec c a) (as ++ [a]).length
        (if e = .noError then first else []) false [] : M (List FileInfo)) = .ok infos ∧
      headersLength infos ≤ (centrals codec c 0 (as ++ [a])).length := by
    cases as with
    | nil =>
      have := removeLoop_ok (codec := codec) (c := c) same (normPath a.path) stale garbage (locLen codec c a) fuel [] [] a 1 false []
        h hp hf
      obtain ⟨infos, h1, h2⟩ := this
      refine ⟨infos, ?_, by simpa [headersLength] using h2⟩
      rw [List.nil_append, getNextFile_first h, ok_bind]
      exact h1
    | cons b t =>
      have := removeLoop_ok (codec := codec) (c := c) same (normPath a.path) stale garbage (locLen codec c a) fuel (t ++ [a]) [] b
        (b :: t ++ [a]).length false [] h hp (by simp at hf ⊢; omega)
      obtain ⟨infos, h1, h2⟩ := this
      refine ⟨infos, ?_, by simpa [headersLength] using h2⟩
      rw [List.cons_append] at h ⊢
      rw [getNextFile_first h, ok_bind]
      exact h1
  obtain ⟨infos, hinf, hinfl⟩ := hloop
  have hr1 : readAt (archive codec c (as ++ [a])) 0 (locals codec c as).length = .ok (locals codec c as) := by
    refine readAt_cur (rest := locals codec c [a] ++ (centrals codec c 0 (as ++ [a]) ++ endOf codec c (as ++ [a]))) ?_ _ rfl
    rw [List.drop_zero, archive, locals_append, List.append_assoc]
  have hr2 : readAt (archive codec c (as ++ [a])) ((locals codec c as).length + locLen codec c a)
      (centrals codec c 0 as).length = .ok (centrals codec c 0 as) := by
    have := drop_centrals (codec := codec) (c := c) (as ++ [a])
    rw [hll, centrals_append, List.append_assoc] at this
    exact readAt_cur this _ rfl
  have m1 : (30 + a.path.length + 0 + (rawOf codec c a).length) % 4294967296 = locLen codec c a := by
    rw [Nat.mod_eq_of_lt (by omega)]; omega
  have a3 : adv (locals codec c as).length (locLen codec c a) = (locals codec c as).length + locLen codec c a :=
    adv_eq (by omega)
  have m2 : (P + 8589934592 - (locals codec c as).length - locLen codec c a) % 4294967296 = (centrals codec c 0 as).length := by
    omega
  have m3 : ((locals codec c (as ++ [a])).length + 4294967296 - locLen codec c a) % 4294967296 = (locals codec c as).length := by
    omega
  refine ⟨locals codec c as ++ (centrals codec c 0 as ++ (infos.map (centralHeader (plainInfo
      (((as ++ [a]).length + 65535) % 65536)
      (((centrals codec c 0 (as ++ [a])).length + 4294967296 - (46 + a.path.length + 0 + 0)) % 4294967296)
      (locals codec c as).length))).flatten),
    ((as ++ [a]).length + 65535) % 65536,
    ((centrals codec c 0 (as ++ [a])).length + 4294967296 - (46 + a.path.length + 0 + 0)) % 4294967296, ?_, ?_, ?_, ?_⟩
  · have hai := getZipArchiveInfo_archive (codec := codec) (c := c) (as := as ++ [a]) (by simp) h
    have hP0 : P ≠ 0 := by omega
    rw [newInfo_name, normPath_length] at r2
    obtain ⟨y, hy, hy'⟩ := bind_ok hinf
    unfold removeFile
    simp only [hcp, ok_bind, hP0, if_false, hlp, a18, readLong_cur k18 hl, hcsize, a22, readShort_cur k26 hl, hname,
      readShort_cur k28 hl, Nat.zero_mod, m1, a28, r2, r3, r4, hai, hy]
    simp only at hy'
    rw [show (plainInfo (as ++ [a]).length (centrals codec c 0 (as ++ [a])).length
      (locals codec c (as ++ [a])).length).totalEntries = (as ++ [a]).length from rfl, hy', ok_bind, removeEntry_eq, m3, m2, hr1, ok_bind, a3, hr2, ok_bind]
    simp only [Bool.true_eq_false, if_false, List.append_assoc]
  · rw [List.length_append, List.length_singleton] at hent ⊢; omega
  · omega
  · rw [List.length_append, List.length_append, plain_flatten]; omega

end Verif.Zip
