import Verif.Zip.Model

/-!
# Lemmas about reading fields from archive bytes
-/

namespace Verif.Zip

theorem ok_bind {α β : Type} (a : α) (f : α → M β) : ((Except.ok a : M α) >>= f) = f a := rfl

theorem adv_eq {p k : Nat} (h : p + k < 4294967296) : adv p k = p + k := Nat.mod_eq_of_lt h

theorem le2_length (v : Nat) : (le2 v).length = 2 := rfl
theorem le4_length (v : Nat) : (le4 v).length = 4 := rfl

theorem valLE_le2 (v : Nat) : valLE (le2 v) = v % 65536 := by
  simp only [le2, valLE, BitVec.toNat_ofNat]; omega

theorem valLE_le4 (v : Nat) : valLE (le4 v) = v % 4294967296 := by
  simp only [le4, valLE, BitVec.toNat_ofNat]; omega

theorem drop_add {data a rest : List Byte} {pos : Nat} (h : data.drop pos = a ++ rest) (n : Nat) (hn : n = a.length) :
    data.drop (pos + n) = rest := by
  rw [← List.drop_drop, h, hn, List.drop_left]

theorem drop_len {data a rest : List Byte} {pos : Nat} (h : data.drop pos = a ++ rest) (ha : a ≠ []) :
    pos + a.length + rest.length = data.length := by
  have h1 := congrArg List.length h
  have : 0 < a.length := List.length_pos_iff.2 ha
  simp only [List.length_drop, List.length_append] at h1
  omega

theorem readAt_cur {data a rest : List Byte} {pos : Nat} (h : data.drop pos = a ++ rest) (n : Nat) (hn : n = a.length) :
    readAt data pos n = .ok a := by
  subst hn
  unfold readAt
  by_cases ha : a = []
  · subst ha; rfl
  · have h1 := drop_len h ha
    have h0 : a.length ≠ 0 := by simpa using ha
    rw [if_neg h0, if_pos (by omega), h, List.take_left]

theorem readLong_cur {data rest : List Byte} {pos v : Nat} (h : data.drop pos = le4 v ++ rest)
    (hl : data.length < 4294967296) : readLong data pos = .ok (v % 4294967296, pos + 4) := by
  have h1 := drop_len h (by simp [le4])
  rw [le4_length] at h1
  unfold readLong
  rw [if_neg (by omega), readAt_cur h 4 rfl, ok_bind, valLE_le4, adv_eq (by omega)]

theorem readShort_cur {data rest : List Byte} {pos v : Nat} (h : data.drop pos = le2 v ++ rest)
    (hl : data.length < 4294967296) : readShort data pos = .ok (v % 65536, pos + 2) := by
  have h1 := drop_len h (by simp [le2])
  rw [le2_length] at h1
  unfold readShort
  rw [if_neg (by omega), readAt_cur h 2 rfl, ok_bind, valLE_le2, adv_eq (by omega)]

theorem readLong_end {data : List Byte} {pos : Nat} (h : data.length ≤ pos) : readLong data pos = .ok (0, pos) := by
  unfold readLong; rw [if_pos h]

theorem readShort_end {data : List Byte} {pos : Nat} (h : data.length ≤ pos) : readShort data pos = .ok (0, pos) := by
  unfold readShort; rw [if_pos h]

/-- An archive information with the values every archive written by the library has. -/
def plainInfo (entries size off : Nat) : ArchiveInfo :=
  { comment := [], thisDisk := 0, centralDisk := 0, entriesOnDisk := entries, totalEntries := entries,
    sizeOfCentral := size, offsetCentral := off, startingDisk := 0, commentLength := 0 }

/-- A central header as the library writes it. -/
def central (i : FileInfo) : List Byte := centralHeader (plainInfo 0 0 0) i

theorem centralHeader_plain (n s o : Nat) (i : FileInfo) : centralHeader (plainInfo n s o) i = central i := rfl

theorem central_length (i : FileInfo) : (central i).length = 46 + i.name.length := by
  simp [central, centralHeader, plainInfo, le4, le2]; omega

theorem localHeader_length (i : FileInfo) : (localHeader i).length = 30 + i.name.length := by
  simp [localHeader, le4, le2]; omega

theorem endHeader_length (n s o : Nat) : (endHeader (plainInfo n s o)).length = 22 := rfl

theorem central_drop0 (i : FileInfo) (rest : List Byte) :
    central i ++ rest = le4 sigCentral ++ ((central i).drop 4 ++ rest) := by
  simp [central, centralHeader, le4]

theorem central_drop4 (i : FileInfo) (rest : List Byte) :
    (central i ++ rest).drop 4 = le2 i.version ++ (le2 i.version ++ (le2 i.flags ++ (le2 i.method ++ (le2 i.dosTime ++
      (le2 i.dosDate ++ (le4 i.crc ++ (le4 i.compressedSize ++ (le4 i.uncompressedSize ++ (le2 i.name.length ++
      (le2 0 ++ (le2 i.comment.length ++ (le2 0 ++ (le2 i.internalAttrib ++ (le4 i.externalAttrib ++
      (le4 i.offset ++ (i.name ++ rest)))))))))))))))) := by
  simp [central, centralHeader, plainInfo, le4, le2]

theorem central_drop28 (i : FileInfo) (rest : List Byte) :
    (central i ++ rest).drop 28 = le2 i.name.length ++ (le2 0 ++ (le2 i.comment.length ++
      ((le2 0 ++ (le2 i.internalAttrib ++ le4 i.externalAttrib)) ++ (le4 i.offset ++ (i.name ++ rest))))) := by
  simp [central, centralHeader, plainInfo, le4, le2]

theorem localHeader_drop0 (i : FileInfo) (rest : List Byte) :
    localHeader i ++ rest = le4 sigLocal ++ ((localHeader i).drop 4 ++ rest) := by
  simp [localHeader, le4]

theorem localHeader_drop26 (i : FileInfo) (rest : List Byte) :
    (localHeader i ++ rest).drop 26 = le2 i.name.length ++ (le2 0 ++ (i.name ++ rest)) := by
  simp [localHeader, le4, le2]

/-! ## One round of the search -/

/-- The common part of both searches on a central header. -/
theorem round_reads {data rest : List Byte} {i : FileInfo} {pos : Nat}
    (hd : data.drop pos = central i ++ rest) (hl : data.length < 4294967296)
    (hn : i.name.length ≤ 1024) (hc : i.comment = []) :
    readLong data pos = .ok (sigCentral, pos + 4) ∧ adv (pos + 4) 24 = pos + 28 ∧
    readShort data (pos + 28) = .ok (i.name.length, pos + 30) ∧
    readShort data (pos + 30) = .ok (0, pos + 32) ∧
    readShort data (pos + 32) = .ok (0, pos + 34) ∧
    adv (pos + 34) 8 = pos + 42 ∧
    readLong data (pos + 42) = .ok (i.offset % 4294967296, pos + 46) ∧
    readName data (pos + 46) i.name.length = .ok (i.name, pos + 46 + i.name.length) ∧
    data.drop (pos + 46 + i.name.length) = rest ∧ pos + 46 + i.name.length ≤ data.length := by
  have hlen := drop_len hd (by simp [central, centralHeader, le4])
  rw [central_length] at hlen
  have h0 : data.drop pos = le4 sigCentral ++ ((central i).drop 4 ++ rest) := by rw [hd, central_drop0]
  have h28 : data.drop (pos + 28) = le2 i.name.length ++ (le2 0 ++ (le2 i.comment.length ++
      ((le2 0 ++ (le2 i.internalAttrib ++ le4 i.externalAttrib)) ++ (le4 i.offset ++ (i.name ++ rest))))) := by
    rw [← List.drop_drop, hd, central_drop28]
  have h30 := drop_add h28 2 rfl
  have h32 := drop_add h30 2 rfl
  have h34 := drop_add h32 2 rfl
  have h42 := drop_add h34 8 rfl
  have h46 := drop_add h42 4 rfl
  simp only [Nat.add_assoc, Nat.reduceAdd] at h30 h32 h34 h42 h46
  have hend := drop_add h46 i.name.length rfl
  refine ⟨?_, adv_eq (by omega), ?_, ?_, ?_, adv_eq (by omega), ?_, ?_, ?_, by omega⟩
  · rw [readLong_cur h0 hl]; rfl
  · rw [readShort_cur h28 hl, Nat.mod_eq_of_lt (by omega)]
  · rw [readShort_cur h30 hl]
  · rw [readShort_cur h32 hl, hc]; rfl
  · rw [readLong_cur h42 hl]
  · unfold readName readFromFile
    rw [if_pos hn, readAt_cur h46 _ rfl, ok_bind, adv_eq (by omega)]
  · simpa only [Nat.add_assoc] using hend

theorem decide_name (path name : List Byte) :
    decide (path.length = name.length ∧ name = path) = decide (name = path) := by
  rw [decide_eq_decide]
  exact ⟨fun h => h.2, fun h => ⟨by rw [h], h⟩⟩

theorem findRound_central {data rest path : List Byte} {i : FileInfo} {pos : Nat}
    (hd : data.drop pos = central i ++ rest) (hl : data.length < 4294967296)
    (hn : i.name.length ≤ 1024) (hc : i.comment = []) :
    findRound data path pos = .ok (if i.name = path then .inl (some pos) else .inr (pos + 46 + i.name.length)) := by
  obtain ⟨r1, a1, r2, r3, r4, a2, r5, r6, -, hle⟩ := round_reads hd hl hn hc
  unfold findRound
  simp only [r1, ok_bind, a1, r2, r3, r4, a2, r5, r6, decide_name, ne_eq, not_true_eq_false, decide_false,
    Nat.add_zero, Bool.false_eq_true, if_false]
  rw [adv_eq (by omega)]
  by_cases h : i.name = path <;> simp [h]

theorem findLocalRound_central {data rest path : List Byte} {i : FileInfo} {pos : Nat}
    (hd : data.drop pos = central i ++ rest) (hl : data.length < 4294967296)
    (hn : i.name.length ≤ 1024) (hc : i.comment = []) :
    findLocalRound data path pos =
      .ok (if i.name = path then .inl (some (i.offset % 4294967296)) else .inr (pos + 46 + i.name.length)) := by
  obtain ⟨r1, a1, r2, r3, r4, a2, r5, r6, -, hle⟩ := round_reads hd hl hn hc
  unfold findLocalRound
  simp only [r1, ok_bind, a1, r2, r3, r4, a2, r5, r6, decide_name, ne_eq, not_true_eq_false, decide_false,
    Nat.add_zero, Bool.false_eq_true, if_false]
  rw [adv_eq (by omega)]
  by_cases h : i.name = path <;> simp [h]

/-- At the end header the search stops without a match. -/
theorem findRound_end {data path : List Byte} {n s o pos : Nat}
    (hd : data.drop pos = endHeader (plainInfo n s o)) (hl : data.length + 100 < 4294967296) (hp : path ≠ []) :
    findRound data path pos = .ok (.inl none) := by
  have h0 : data.drop pos = le4 sigEnd ++ (endHeader (plainInfo n s o)).drop 4 := by rw [hd]; rfl
  have hlen := congrArg List.length hd
  rw [endHeader_length, List.length_drop] at hlen
  have r1 := readLong_cur h0 (by omega)
  have a1 : adv (pos + 4) 24 = pos + 28 := adv_eq (by omega)
  have r2 : readShort data (pos + 28) = .ok (0, pos + 28) := readShort_end (by omega)
  have a2 : adv (pos + 28) 8 = pos + 36 := adv_eq (by omega)
  have r3 : readLong data (pos + 36) = .ok (0, pos + 36) := readLong_end (by omega)
  have r4 : readName data (pos + 36) 0 = .ok ([], pos + 36) := by
    unfold readName readFromFile readAt
    simp only [Nat.zero_le, if_true, ok_bind]
    rw [adv_eq (by omega)]
  have hb : decide (path.length = 0 ∧ ([] : List Byte) = path) = false := by
    rw [decide_eq_false_iff_not]; rintro ⟨-, h⟩; exact hp h.symm
  have hs : decide (sigEnd % 4294967296 ≠ sigCentral) = true := by decide
  unfold findRound
  simp only [r1, ok_bind, a1, r2, a2, r3, r4, hb, hs, if_true, Bool.false_eq_true, if_false]

/-! ## The backward search for the end header -/

theorem searchEnd_step {data rest : List Byte} {p : Nat} {a b c d : Byte}
    (h : data.drop (p + 1) = [a, b, c, d] ++ rest) (hl : data.length < 4294967296)
    (hv : a.toNat + 256 * (b.toNat + 256 * (c.toNat + 256 * d.toNat)) ≠ sigEnd) :
    searchEnd data (p + 1) = searchEnd data p := by
  have h1 := drop_len h (by simp)
  simp only [List.length_cons, List.length_nil] at h1
  rw [searchEnd]
  unfold readLong
  rw [if_neg (by omega), readAt_cur h 4 rfl]
  simp only [ok_bind, valLE, Nat.mul_zero, Nat.add_zero, hv, and_false, if_false]

theorem searchEnd_found {data rest : List Byte} {p : Nat}
    (h : data.drop (p + 1) = le4 sigEnd ++ rest) (hl : data.length < 4294967296) :
    searchEnd data (p + 1) = .ok (some (p + 1)) := by
  rw [searchEnd, readLong_cur h hl]
  simp only [ok_bind]
  rw [if_pos ⟨by omega, rfl⟩]

/-- The bytes of the end header are not mistaken for another end header. -/
structure EndClear (n s o : Nat) : Prop where
  entries : n < 19280
  size : s < 88821760
  offset : o < 4294967296
  offset_ne : o ≠ sigEnd

theorem searchEnd_archive {data : List Byte} {n s o p : Nat}
    (hd : data.drop (p + 1) = endHeader (plainInfo n s o)) (hl : data.length < 4294967296) (hc : EndClear n s o) :
    searchEnd data (p + 18) = .ok (some (p + 1)) := by
  obtain ⟨h1, h2, h3, h4⟩ := hc
  have hs : ∀ k, data.drop (p + 1 + k) = (endHeader (plainInfo n s o)).drop k := by
    intro k; rw [← List.drop_drop, hd]
  unfold sigEnd at h4
  have e17 : searchEnd data (p + 18) = searchEnd data (p + 17) := by
    refine searchEnd_step (hs 17) hl ?_
    simp only [plainInfo, BitVec.toNat_ofNat, sigEnd]; omega
  have e16 : searchEnd data (p + 17) = searchEnd data (p + 16) := by
    refine searchEnd_step (hs 16) hl ?_
    simp only [plainInfo, BitVec.toNat_ofNat, sigEnd]; omega
  have e15 : searchEnd data (p + 16) = searchEnd data (p + 15) := by
    refine searchEnd_step (hs 15) hl ?_
    simp only [plainInfo, BitVec.toNat_ofNat, sigEnd]; omega
  have e14 : searchEnd data (p + 15) = searchEnd data (p + 14) := by
    refine searchEnd_step (hs 14) hl ?_
    simp only [plainInfo, BitVec.toNat_ofNat, sigEnd]; omega
  have e13 : searchEnd data (p + 14) = searchEnd data (p + 13) := by
    refine searchEnd_step (hs 13) hl ?_
    simp only [plainInfo, BitVec.toNat_ofNat, sigEnd]; omega
  have e12 : searchEnd data (p + 13) = searchEnd data (p + 12) := by
    refine searchEnd_step (hs 12) hl ?_
    simp only [plainInfo, BitVec.toNat_ofNat, sigEnd]; omega
  have e11 : searchEnd data (p + 12) = searchEnd data (p + 11) := by
    refine searchEnd_step (hs 11) hl ?_
    simp only [plainInfo, BitVec.toNat_ofNat, sigEnd]; omega
  have e10 : searchEnd data (p + 11) = searchEnd data (p + 10) := by
    refine searchEnd_step (hs 10) hl ?_
    simp only [plainInfo, BitVec.toNat_ofNat, sigEnd]; omega
  have e9 : searchEnd data (p + 10) = searchEnd data (p + 9) := by
    refine searchEnd_step (hs 9) hl ?_
    simp only [plainInfo, BitVec.toNat_ofNat, sigEnd]; omega
  have e8 : searchEnd data (p + 9) = searchEnd data (p + 8) := by
    refine searchEnd_step (hs 8) hl ?_
    simp only [plainInfo, BitVec.toNat_ofNat, sigEnd]; omega
  have e7 : searchEnd data (p + 8) = searchEnd data (p + 7) := by
    refine searchEnd_step (hs 7) hl ?_
    simp only [plainInfo, BitVec.toNat_ofNat, sigEnd]; omega
  have e6 : searchEnd data (p + 7) = searchEnd data (p + 6) := by
    refine searchEnd_step (hs 6) hl ?_
    simp only [plainInfo, BitVec.toNat_ofNat, sigEnd]; omega
  have e5 : searchEnd data (p + 6) = searchEnd data (p + 5) := by
    refine searchEnd_step (hs 5) hl ?_
    simp only [plainInfo, BitVec.toNat_ofNat, sigEnd]; omega
  have e4 : searchEnd data (p + 5) = searchEnd data (p + 4) := by
    refine searchEnd_step (hs 4) hl ?_
    simp only [plainInfo, BitVec.toNat_ofNat, sigEnd]; omega
  have e3 : searchEnd data (p + 4) = searchEnd data (p + 3) := by
    refine searchEnd_step (hs 3) hl ?_
    simp only [plainInfo, BitVec.toNat_ofNat, sigEnd]; omega
  have e2 : searchEnd data (p + 3) = searchEnd data (p + 2) := by
    refine searchEnd_step (hs 2) hl ?_
    simp only [plainInfo, BitVec.toNat_ofNat, sigEnd]; omega
  have e1 : searchEnd data (p + 2) = searchEnd data (p + 1) := by
    refine searchEnd_step (hs 1) hl ?_
    simp only [plainInfo, BitVec.toNat_ofNat, sigEnd]; omega
  rw [e17, e16, e15, e14, e13, e12, e11, e10, e9, e8, e7, e6, e5, e4, e3, e2, e1]
  refine searchEnd_found (rest := (endHeader (plainInfo n s o)).drop 4) ?_ hl
  rw [hd]; rfl

end Verif.Zip
