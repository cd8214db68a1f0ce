import Verif.Zip.Archive

/-!
# What every operation does on an archive written by the library
-/

namespace Verif.Zip

variable {codec : Codec} {c : Bool}

/-- The bytes of an opened archive to which the entries have been added. -/
def bytesOf (codec : Codec) (c : Bool) (as : List Add) : List Byte := if as = [] then [] else archive codec c as

theorem bytesOf_ne {as : List Add} (h : as ≠ []) : bytesOf codec c as = archive codec c as := if_neg h

theorem getCentralDirPosition_nil : getCentralDirPosition [] = .ok 0 := rfl

theorem getFileCentralHeaderPosition_nil (fuel : Nat) (path : List Byte) :
    getFileCentralHeaderPosition fuel [] path = .ok 0 := rfl

/-- A name that is not in the archive is not found. -/
theorem position_none {as : List Add} (h : Limits codec c as) {path : List Byte} {fuel : Nat}
    (hf : as.length + 1 ≤ fuel) (hne : ∀ a ∈ as, normPath a.path ≠ path) :
    getFileCentralHeaderPosition fuel (bytesOf codec c as) path = .ok 0 := by
  by_cases has : as = []
  · subst has; rfl
  · rw [bytesOf_ne has]; exact position_missing h hf hne has

theorem readLong_zero {as : List Add} (h : Limits codec c as) :
    ∃ p, readLong (bytesOf codec c as) 0 = .ok ((if as = [] then 0 else sigLocal), p) := by
  cases as with
  | nil => exact ⟨0, rfl⟩
  | cons a t =>
    have hd := drop_local (codec := codec) (c := c) [] t a
    rw [localHeader_drop0] at hd
    rw [bytesOf_ne (by simp), if_neg (by simp)]
    exact ⟨_, readLong_cur hd (by have := h.size; simp only [List.nil_append]; omega)⟩

/-- `GetFileInfo` of a missing name. -/
theorem getFileInfo_missing {as : List Add} (h : Limits codec c as) {path : List Byte} {fuel : Nat}
    (hf : as.length + 1 ≤ fuel) (hne : ∀ a ∈ as, normPath a.path ≠ path) :
    getFileInfo fuel (bytesOf codec c as) path = .ok (.false_, none) := by
  obtain ⟨p, hp⟩ := readLong_zero h
  unfold getFileInfo
  rw [position_none h hf hne, ok_bind, hp, ok_bind]
  have : (if as = [] then 0 else sigLocal) ≠ sigCentral := by split <;> decide
  simp only [ne_eq, this, not_false_eq_true, if_true]

/-- `GetFile` of an entry. -/
theorem getFile_found {l1 l2 : List Add} {a : Add} (h : Limits codec c (l1 ++ a :: l2)) {fuel : Nat}
    (hf : l1.length + 1 ≤ fuel) (hne : ∀ b ∈ l1, normPath b.path ≠ normPath a.path)
    (hcodec : c = true → codec.decomp (codec.comp a.content) = some a.content) (garbage : FileInfo) :
    getFile codec fuel (archive codec c (l1 ++ a :: l2)) garbage (normPath a.path) = .ok (.noError, some a.content) := by
  have hsz := h.size
  have hl : (archive codec c (l1 ++ a :: l2)).length < 4294967296 := by omega
  have hd := drop_local (codec := codec) (c := c) l1 l2 a
  have hnl : a.path.length ≤ 1024 := (h.names a (by simp)).2.1
  have k26 := congrArg (List.drop 26) hd
  rw [List.drop_drop, localHeader_drop26] at k26
  have k28 := drop_add k26 2 rfl
  have k30 := drop_add k28 2 rfl
  have kn := drop_add k30 _ rfl
  have hlen := drop_len hd (by simp [localHeader, le4])
  rw [localHeader_length] at hlen
  simp only [List.length_append] at hlen
  have hname : (newInfo codec c a 0).name.length % 65536 = (newInfo codec c a 0).name.length := by
    rw [newInfo_name, normPath_length]; exact Nat.mod_eq_of_lt (by omega)
  have hraw : readFromFile (archive codec c (l1 ++ a :: l2)) ((locals codec c l1).length + 26 + 2 + 2 +
      (newInfo codec c a 0).name.length) (rawOf codec c a).length = .ok (rawOf codec c a, (locals codec c l1).length + 26 + 2 + 2 +
      (newInfo codec c a 0).name.length + (rawOf codec c a).length) := by
    unfold readFromFile
    rw [readAt_cur kn _ rfl, ok_bind, adv_eq (by omega)]
  have ha1 : adv (locals codec c l1).length 26 = (locals codec c l1).length + 26 := adv_eq (by omega)
  have ha2 : adv ((locals codec c l1).length + 26 + 2 + 2) ((newInfo codec c a 0).name.length + 0) =
      (locals codec c l1).length + 26 + 2 + 2 + (newInfo codec c a 0).name.length := adv_eq (by omega)
  unfold getFile
  simp only [getFileInfo_found h hf hne, ok_bind, Option.getD_some]
  rw [show (newInfo codec c a (locals codec c l1).length).offset = (locals codec c l1).length from rfl,
    show (newInfo codec c a (locals codec c l1).length).compressedSize = (rawOf codec c a).length from rfl,
    show (newInfo codec c a (locals codec c l1).length).method = (stored codec c a.content).2 from rfl]
  simp only [ha1, readShort_cur k26 hl, readShort_cur k28 hl, ok_bind, hname, Nat.zero_mod, ha2, hraw]
  cases c with
  | false => rfl
  | true =>
    have : codec.decomp (rawOf codec true a) = some a.content := hcodec rfl
    simp only [stored, if_true, this]
    rfl

/-- Reading the name of the entry whose central header is at a position. -/
theorem getNext_tail {data rest : List Byte} {i : FileInfo} {pos : Nat} (stale : Byte)
    (hd : data.drop pos = central i ++ rest) (hl : data.length < 4294967296)
    (hn : i.name.length ≤ 1024) (hc : i.comment = []) (hne : i.name.headD stale ≠ 0#8) :
    (do let (signature, pos) ← readLong data pos
        if signature ≠ sigCentral then .ok (.false_, [])
        else do
          let pos := adv pos 24
          let (fileNameLength, pos) ← readShort data pos
          let pos := adv pos 16
          let (name, _) ← readName data pos fileNameLength
          if name.headD stale ≠ 0#8 then .ok (.noError, name) else .ok (.failed, []) : M (Err × List Byte)) =
      .ok (.noError, i.name) := by
  obtain ⟨r1, a1, r2, -, -, -, -, r6, -, hle⟩ := round_reads hd hl hn hc
  have a3 : adv (pos + 30) 16 = pos + 46 := adv_eq (by omega)
  simp only [r1, ok_bind, a1, r2, a3, r6, ne_eq, not_true_eq_false, if_false, hne, not_false_eq_true, if_true]

theorem headD_norm {p : List Byte} (h : p ≠ []) (h0 : p.headD 0#8 ≠ 0#8) (stale : Byte) :
    (normPath p).headD stale ≠ 0#8 := by
  cases p with
  | nil => exact absurd rfl h
  | cons b t =>
    simp only [normPath, List.map_cons, List.headD_cons] at h0 ⊢
    split
    · decide
    · exact h0

/-- The first entry of a walk. -/
theorem getNextFile_first {a : Add} {t : List Add} (h : Limits codec c (a :: t)) (fuel : Nat) (stale : Byte) :
    getNextFile fuel (archive codec c (a :: t)) stale [] = .ok (.noError, normPath a.path) := by
  have hne : a :: t ≠ [] := by simp
  have hp := locals_pos (codec := codec) (c := c) hne
  have hna := h.names a (by simp)
  have hd := drop_entry (codec := codec) (c := c) [] t a
  rw [show (centrals codec c 0 []).length = 0 from rfl, Nat.add_zero, List.nil_append] at hd
  unfold getNextFile
  rw [getCentralDirPosition_archive hne h, ok_bind, if_neg (by omega)]
  simp only [ne_eq, not_true_eq_false, if_false, ok_bind]
  exact getNext_tail stale hd (by have := h.size; omega) (by rw [newInfo_name, normPath_length]; exact hna.2.1) rfl
    (headD_norm hna.1 hna.2.2 stale)

/-- Continuing a walk after an entry. -/
theorem getNextFile_after {l1 l2 : List Add} {a : Add} (h : Limits codec c (l1 ++ a :: l2)) {fuel : Nat}
    (hf : l1.length + 1 ≤ fuel) (hne : ∀ b ∈ l1, normPath b.path ≠ normPath a.path) (stale : Byte) :
    getNextFile fuel (archive codec c (l1 ++ a :: l2)) stale (normPath a.path) =
      .ok (match l2 with
        | [] => (.false_, [])
        | b :: _ => (.noError, normPath b.path)) := by
  have has : l1 ++ a :: l2 ≠ [] := by simp
  have hp := locals_pos (codec := codec) (c := c) has
  have hna := h.names a (by simp)
  have hsz := h.size
  have hl : (archive codec c (l1 ++ a :: l2)).length < 4294967296 := by omega
  have hd := drop_entry (codec := codec) (c := c) l1 l2 a
  have hnl : (newInfo codec c a (locals codec c l1).length).name.length ≤ 1024 := by
    rw [newInfo_name, normPath_length]; exact hna.2.1
  obtain ⟨-, -, r2, r3, r4, -, -, -, hrest, hle⟩ := round_reads hd hl hnl rfl
  have hpos := position_found h hf hne
  generalize (locals codec c (l1 ++ a :: l2)).length + (centrals codec c 0 l1).length = P at *
  have a1 : adv P 28 = P + 28 := adv_eq (by omega)
  have a2 : adv (P + 34) (12 + (newInfo codec c a (locals codec c l1).length).name.length) =
      P + 46 + (newInfo codec c a (locals codec c l1).length).name.length := by rw [adv_eq (by omega)]; omega
  unfold getNextFile
  rw [getCentralDirPosition_archive has h, ok_bind, if_neg (by omega)]
  simp only [ne_eq, normPath_ne_nil hna.1, not_false_eq_true, if_true, ok_bind, hpos, a1, r2, r3, r4, Nat.add_zero, a2]
  cases l2 with
  | nil =>
    rw [centrals, List.nil_append] at hrest
    have he : endOf codec c (l1 ++ [a]) = le4 sigEnd ++ (endOf codec c (l1 ++ [a])).drop 4 := rfl
    rw [he] at hrest
    simp only [readLong_cur hrest hl, ok_bind]
    rw [if_pos (by decide)]
  | cons b t =>
    rw [centrals, List.append_assoc] at hrest
    have hnb := h.names b (by simp)
    exact getNext_tail stale hrest hl (by rw [newInfo_name, normPath_length]; exact hnb.2.1) rfl
      (headD_norm hnb.1 hnb.2.2 stale)

/-- The bytes after adding an entry. -/
theorem archive_snoc (as : List Add) (a : Add) (n s o : Nat) (hn : n = as.length + 1)
    (hs : s = (centrals codec c 0 as).length + 46 + a.path.length)
    (ho : o = (locals codec c as).length + (rawOf codec c a).length + a.path.length + 30) :
    archive codec c (as ++ [a]) = locals codec c as ++ (localHeader (newInfo codec c a (locals codec c as).length) ++
      (rawOf codec c a ++ (centrals codec c 0 as ++ (central (newInfo codec c a (locals codec c as).length) ++
        endHeader (plainInfo n s o))))) := by
  have hlen1 : (as ++ [a]).length = n := by simp [hn]
  have hlen2 : (centrals codec c 0 (as ++ [a])).length = s := by
    rw [centrals_append, List.length_append, centrals, centrals, List.append_nil, central_length, newInfo_name,
      normPath_length, hs]; omega
  have hlen3 : (locals codec c (as ++ [a])).length = o := by
    rw [locals_append, List.length_append, locals_cons_length, locLen, ho]
    simp only [locals, List.length_nil]; omega
  rw [archive, endOf, hlen1, hlen2, hlen3, locals_append, centrals_append, locals, locals, centrals, centrals,
    Nat.zero_add, List.append_nil, List.append_nil, localHeader_off codec c a (locals codec c as).length]
  simp only [List.append_assoc]

theorem addEntry_eq (n s o cd m k : Nat) :
    (plainInfo n s o).addEntry cd m k = plainInfo (n + 1) (s + 46 + k) (cd + m + k + 30) := rfl

theorem first_eq (m k : Nat) : ArchiveInfo.first m k = plainInfo 1 (46 + k) (30 + k + m) := rfl

/-- `AddFile` with a name that is not in the archive. -/
theorem addFile_new {as : List Add} (h : Limits codec c as) {a : Add} {fuel : Nat}
    (hf : as.length + 1 ≤ fuel) (hne : ∀ b ∈ as, normPath b.path ≠ normPath a.path) :
    addFile codec fuel ⟨bytesOf codec c as, true, c⟩ a =
      .ok (addErr (rawOf codec c a), ⟨bytesOf codec c (as ++ [a]), true, c⟩) := by
  unfold addFile
  simp only [Bool.true_eq_false, if_false, position_none h hf hne, ok_bind, ne_eq, not_true_eq_false]
  by_cases has : as = []
  · subst has
    rw [show bytesOf codec c [] = [] from rfl, getCentralDirPosition_nil, ok_bind,
      show getEndOfCentralDirPosition [] = .ok 0 from rfl, ok_bind]
    simp only [List.length_nil, not_true_eq_false, false_and, if_false]
    rw [bytesOf_ne (by simp), archive_snoc [] a 1 (46 + a.path.length) (30 + a.path.length + (rawOf codec c a).length)
      rfl (by simp [centrals]) (by simp [locals]; omega)]
    rw [show locals codec c [] = [] from rfl, show centrals codec c 0 [] = [] from rfl, List.nil_append, List.nil_append,
      List.length_nil]
    rw [newInfo_name, normPath_length, first_eq, centralHeader_plain]
    rw [show (stored codec c a.content).1 = rawOf codec c a from rfl]
  · have h2 := h.size
    have h3 := archive_length (codec := codec) (c := c) as
    have h4 := locals_pos (codec := codec) (c := c) has
    have hd0 : (archive codec c as).drop 0 = locals codec c as ++ (centrals codec c 0 as ++ endOf codec c as) := rfl
    have r1 : readFromFile (archive codec c as) 0 (locals codec c as).length =
        .ok (locals codec c as, (locals codec c as).length) := by
      unfold readFromFile
      rw [readAt_cur hd0 _ rfl, ok_bind, adv_eq (by omega), Nat.zero_add]
    have r2 : readFromFile (archive codec c as) (locals codec c as).length (centrals codec c 0 as).length =
        .ok (centrals codec c 0 as, (locals codec c as).length + (centrals codec c 0 as).length) := by
      unfold readFromFile
      rw [readAt_cur (drop_centrals as) _ rfl, ok_bind, adv_eq (by omega)]
    have hm : ((locals codec c as).length + (centrals codec c 0 as).length + 4294967296 - (locals codec c as).length) %
        4294967296 = (centrals codec c 0 as).length := by omega
    rw [bytesOf_ne has, getCentralDirPosition_archive has h, ok_bind, getEndOfCentralDirPosition_archive has h, ok_bind,
      if_pos ⟨by omega, by omega, by omega⟩, r1, ok_bind]
    simp only [hm, r2, ok_bind, getZipArchiveInfo_archive has h]
    rw [bytesOf_ne (by simp), archive_snoc as a _ _ _ rfl rfl rfl, newInfo_name, normPath_length, addEntry_eq,
      centralHeader_plain]
    rw [show (stored codec c a.content).1 = rawOf codec c a from rfl]

/-- `AddFile` with a name that is in the archive. -/
theorem addFile_duplicate {l1 l2 : List Add} {a b : Add} (h : Limits codec c (l1 ++ a :: l2)) {fuel : Nat}
    (hf : l1.length + 1 ≤ fuel) (hne : ∀ x ∈ l1, normPath x.path ≠ normPath a.path)
    (hb : normPath b.path = normPath a.path) (compress : Bool) :
    addFile codec fuel ⟨bytesOf codec c (l1 ++ a :: l2), true, compress⟩ b =
      .ok (.invalidArg, ⟨bytesOf codec c (l1 ++ a :: l2), true, compress⟩) := by
  have has : l1 ++ a :: l2 ≠ [] := by simp
  have hp := locals_pos (codec := codec) (c := c) has
  unfold addFile
  simp only [Bool.true_eq_false, if_false]
  have hx : (locals codec c (l1 ++ a :: l2)).length + (centrals codec c 0 l1).length ≠ 0 := by omega
  simp only [bytesOf_ne has, hb, position_found h hf hne, ok_bind, if_pos hx]

end Verif.Zip
