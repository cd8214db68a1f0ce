import Verif.Disk.Lemmas

/-!
# Opening an archive that has been cut off
-/

namespace Verif.Disk

open Verif.Zip Verif.Zip.Spec

theorem readAt_take {data : List Byte} {n pos : Nat} (h : pos + 4 ≤ n) (hn : n ≤ data.length) :
    readAt (data.take n) pos 4 = readAt data pos 4 := by
  unfold readAt
  simp only [show ¬ (4 = 0) from by decide, if_false]
  rw [List.length_take, if_pos (by omega), if_pos (by omega)]
  congr 1
  rw [List.drop_take, List.take_take, Nat.min_eq_left (by omega)]

theorem readLong_take {data : List Byte} {n pos : Nat} (h : pos + 4 ≤ n) (hn : n ≤ data.length) :
    readLong (data.take n) pos = readLong data pos := by
  unfold readLong
  rw [List.length_take, if_neg (by omega), if_neg (by omega), readAt_take h hn]

theorem searchEnd_take {data : List Byte} {n : Nat} (hn : n ≤ data.length) : ∀ k, k + 4 ≤ n →
    searchEnd (data.take n) k = searchEnd data k := by
  intro k
  induction k with
  | zero => intro _; rfl
  | succ k ih =>
    intro h
    rw [searchEnd, searchEnd, readLong_take h hn, ih (by omega)]

/-- A search that ends at `q` ends there from every position in between. -/
theorem searchEnd_between {data : List Byte} {q : Nat} : ∀ k s, searchEnd data k = .ok (some q) → q ≤ s → s ≤ k →
    searchEnd data s = .ok (some q) := by
  intro k
  induction k with
  | zero =>
    intro s h _ hs
    rw [searchEnd] at h
    injection h with h
    cases h
  | succ k ih =>
    intro s h hq hs
    rcases Nat.lt_or_ge k s with hk | hk
    · rw [show s = k + 1 from by omega]; exact h
    · rw [searchEnd] at h
      obtain ⟨⟨v, p⟩, h1, h2⟩ := bind_ok h
      simp only at h2
      split at h2
      · injection h2 with h2
        injection h2 with h2
        omega
      · exact ih s h2 hq hk

variable {codec : Codec} {c : Bool}

/-- What is found in an archive without its last `m` bytes, `3 ≤ m ≤ 17`. -/
theorem getCentralDirPosition_cut {as : List Add} (hne : as ≠ []) (h : Limits codec c as) (m : Nat) (h3 : 3 ≤ m) (h17 : m ≤ 17) :
    getCentralDirPosition ((archive codec c as).take ((archive codec c as).length - m)) =
      if m ≤ 5 then .error .ub else .ok 0 := by
  have hs := searchEnd_of hne h
  have h2 := h.size
  have hlen := archive_length (codec := codec) (c := c) as
  have hpos := locals_pos (codec := codec) (c := c) hne
  have hstart : searchStart (archive codec c as) = (archive codec c as).length - 5 := by unfold searchStart; omega
  rw [hstart] at hs
  have hl : ((archive codec c as).take ((archive codec c as).length - m)).length = (archive codec c as).length - m := by
    rw [List.length_take]; omega
  have hst : searchStart ((archive codec c as).take ((archive codec c as).length - m)) = (archive codec c as).length - m - 5 := by
    unfold searchStart; rw [hl]; omega
  unfold getCentralDirPosition
  rw [if_neg (by rw [hl]; omega), hst, searchEnd_take (by omega) _ (by omega),
    searchEnd_between _ _ hs (by omega) (by omega), ok_bind]
  simp only
  rw [adv_eq (by omega)]
  unfold readLong
  rw [hl]
  by_cases hm : m ≤ 5
  · rw [if_neg (by omega), if_pos hm]
    unfold readAt
    rw [if_neg (by decide), hl, if_neg (by omega)]
    rfl
  · rw [if_pos (by omega), if_neg hm]
    rfl

theorem getNextFile_cut {as : List Add} (hne : as ≠ []) (h : Limits codec c as) (m : Nat) (h3 : 3 ≤ m) (h17 : m ≤ 17)
    (fuel : Nat) (stale : Byte) (path : List Byte) :
    getNextFile fuel ((archive codec c as).take ((archive codec c as).length - m)) stale path =
      if m ≤ 5 then .error .ub else .ok (.failed, []) := by
  unfold getNextFile
  rw [getCentralDirPosition_cut hne h m h3 h17]
  by_cases hm : m ≤ 5
  · rw [if_pos hm, if_pos hm]; rfl
  · rw [if_neg hm, if_neg hm]; rfl

end Verif.Disk
