import Verif.Zip.Lemmas

/-!
# The layout of an archive written by the library, and what the reading functions see in it
-/

namespace Verif.Zip

variable (codec : Codec) (c : Bool)

/-- The bytes stored for the content. -/
def rawOf (a : Add) : List Byte := (stored codec c a.content).1

/-- Size of the local part of an entry. -/
def locLen (a : Add) : Nat := 30 + a.path.length + (rawOf codec c a).length

/-- Local headers and data of the entries. -/
def locals : List Add → List Byte
  | [] => []
  | a :: t => localHeader (newInfo codec c a 0) ++ (rawOf codec c a ++ locals t)

/-- Central directory of the entries; the first one is at `off`. -/
def centrals (off : Nat) : List Add → List Byte
  | [] => []
  | a :: t => central (newInfo codec c a off) ++ centrals (off + locLen codec c a) t

def endOf (as : List Add) : List Byte :=
  endHeader (plainInfo as.length (centrals codec c 0 as).length (locals codec c as).length)

/-- An archive holding the entries. -/
def archive (as : List Add) : List Byte := locals codec c as ++ (centrals codec c 0 as ++ endOf codec c as)

theorem normPath_length (p : List Byte) : (normPath p).length = p.length := by simp [normPath]

theorem newInfo_name (a : Add) (off : Nat) : (newInfo codec c a off).name = normPath a.path := rfl

theorem localHeader_off (a : Add) (off : Nat) :
    localHeader (newInfo codec c a off) = localHeader (newInfo codec c a 0) := rfl

theorem locals_append (l1 l2 : List Add) : locals codec c (l1 ++ l2) = locals codec c l1 ++ locals codec c l2 := by
  induction l1 with
  | nil => rfl
  | cons a t ih => simp [locals, ih]

theorem locals_cons_length (a : Add) (t : List Add) :
    (locals codec c (a :: t)).length = locLen codec c a + (locals codec c t).length := by
  simp only [locals, List.length_append, localHeader_length, newInfo_name, normPath_length, locLen]; omega

theorem centrals_append (l1 l2 : List Add) : ∀ off, centrals codec c off (l1 ++ l2) =
    centrals codec c off l1 ++ centrals codec c (off + (locals codec c l1).length) l2 := by
  induction l1 with
  | nil => intro off; rfl
  | cons a t ih =>
    intro off
    rw [List.cons_append, centrals, ih, centrals, List.append_assoc, locals_cons_length, ← Nat.add_assoc]

theorem centrals_length_off (as : List Add) : ∀ off, (centrals codec c off as).length =
    as.foldr (fun a n => 46 + a.path.length + n) 0 := by
  induction as with
  | nil => intro _; rfl
  | cons a t ih =>
    intro off
    rw [centrals, List.length_append, central_length, newInfo_name, normPath_length, ih, List.foldr_cons]

theorem centrals_bound (as : List Add) (off : Nat) (h : ∀ a ∈ as, a.path.length ≤ 1024) :
    (centrals codec c off as).length ≤ 1070 * as.length := by
  rw [centrals_length_off]
  induction as with
  | nil => simp
  | cons a t ih =>
    have h1 := h a (by simp)
    have h2 := ih (fun b hb => h b (by simp [hb]))
    rw [List.foldr_cons, List.length_cons]
    omega

/-- What an archive has to satisfy for the library to work on it: fewer than 19280 entries, names of 1 to 1024
bytes not starting with a zero byte, less than 4 GiB, and the local part not of the one size whose bytes read as
the end signature. -/
structure Limits (as : List Add) : Prop where
  entries : as.length < 19280
  names : ∀ a ∈ as, a.path ≠ [] ∧ a.path.length ≤ 1024 ∧ a.path.headD 0#8 ≠ 0#8
  size : (archive codec c as).length + 100 < 4294967296
  notEnd : (locals codec c as).length ≠ sigEnd

variable {codec c}

theorem archive_length (as : List Add) : (archive codec c as).length =
    (locals codec c as).length + (centrals codec c 0 as).length + 22 := by
  simp only [archive, endOf, List.length_append, endHeader_length]; omega

theorem Limits.clear {as : List Add} (h : Limits codec c as) :
    EndClear as.length (centrals codec c 0 as).length (locals codec c as).length := by
  have hb := centrals_bound codec c as 0 (fun a ha => (h.names a ha).2.1)
  have h1 := h.entries
  have h2 := h.size
  rw [archive_length] at h2
  exact ⟨h1, by omega, by omega, h.notEnd⟩

theorem locals_pos {as : List Add} (hne : as ≠ []) : 30 ≤ (locals codec c as).length := by
  cases as with
  | nil => exact absurd rfl hne
  | cons a t => rw [locals_cons_length, locLen]; omega

theorem drop_centrals (as : List Add) :
    (archive codec c as).drop (locals codec c as).length = centrals codec c 0 as ++ endOf codec c as := by
  rw [archive, List.drop_left]

theorem drop_end (as : List Add) :
    (archive codec c as).drop ((locals codec c as).length + (centrals codec c 0 as).length) = endOf codec c as :=
  drop_add (drop_centrals as) _ rfl

theorem searchEnd_of {as : List Add} (hne : as ≠ []) (h : Limits codec c as) :
    searchEnd (archive codec c as) (searchStart (archive codec c as)) =
      .ok (some ((locals codec c as).length + (centrals codec c 0 as).length)) := by
  have h2 := h.size
  have h3 := archive_length (codec := codec) (c := c) as
  have h4 := locals_pos (codec := codec) (c := c) hne
  obtain ⟨p, hp⟩ : ∃ p, (locals codec c as).length + (centrals codec c 0 as).length = p + 1 := ⟨_, (Nat.succ_pred (by omega)).symm⟩
  have hd := drop_end (codec := codec) (c := c) as
  rw [hp] at hd
  have hs : searchStart (archive codec c as) = p + 18 := by unfold searchStart; omega
  rw [hs, hp]
  exact searchEnd_archive hd (by omega) h.clear

theorem getCentralDirPosition_archive {as : List Add} (hne : as ≠ []) (h : Limits codec c as) :
    getCentralDirPosition (archive codec c as) = .ok (locals codec c as).length := by
  have h2 := h.size
  have h3 := archive_length (codec := codec) (c := c) as
  unfold getCentralDirPosition
  rw [if_neg (by omega), searchEnd_of hne h]
  simp only [ok_bind]
  rw [adv_eq (by omega)]
  have hd : (archive codec c as).drop ((locals codec c as).length + (centrals codec c 0 as).length + 16) =
      le4 (locals codec c as).length ++ (le2 0 ++ []) := by
    rw [← List.drop_drop, drop_end]; rfl
  rw [readLong_cur hd (by omega), ok_bind, Nat.mod_eq_of_lt (by omega)]

theorem getEndOfCentralDirPosition_archive {as : List Add} (hne : as ≠ []) (h : Limits codec c as) :
    getEndOfCentralDirPosition (archive codec c as) =
      .ok ((locals codec c as).length + (centrals codec c 0 as).length) := by
  have h3 := archive_length (codec := codec) (c := c) as
  unfold getEndOfCentralDirPosition
  rw [if_neg (by omega), searchEnd_of hne h]
  rfl

theorem getZipArchiveInfo_archive {as : List Add} (hne : as ≠ []) (h : Limits codec c as) :
    getZipArchiveInfo (archive codec c as) =
      .ok (some (plainInfo as.length (centrals codec c 0 as).length (locals codec c as).length)) := by
  have hc := h.clear
  have h2 := h.size
  have h3 := archive_length (codec := codec) (c := c) as
  have h4 := locals_pos (codec := codec) (c := c) hne
  have hd0 : (archive codec c as).drop ((locals codec c as).length + (centrals codec c 0 as).length) =
      le4 sigEnd ++ (le2 0 ++ (le2 0 ++ (le2 as.length ++ (le2 as.length ++ (le4 (centrals codec c 0 as).length ++
        (le4 (locals codec c as).length ++ (le2 0 ++ []))))))) := drop_end as
  have h4' := drop_add hd0 4 rfl
  have h6 := drop_add h4' 2 rfl
  have h8 := drop_add h6 2 rfl
  have h10 := drop_add h8 2 rfl
  have h12 := drop_add h10 2 rfl
  have h16 := drop_add h12 4 rfl
  have h20 := drop_add h16 4 rfl
  have h22 := drop_add h20 2 rfl
  have hl : (archive codec c as).length < 4294967296 := by omega
  have hend : readFromFile (archive codec c as) ((locals codec c as).length + (centrals codec c 0 as).length + 4 + 2 +
      2 + 2 + 2 + 4 + 4 + 2) 0 = .ok ([], (locals codec c as).length + (centrals codec c 0 as).length + 4 + 2 +
      2 + 2 + 2 + 4 + 4 + 2) := by
    unfold readFromFile readAt
    rw [if_pos rfl, ok_bind, adv_eq (by omega)]
  unfold getZipArchiveInfo
  rw [getEndOfCentralDirPosition_archive hne h, ok_bind, if_neg (by omega), readLong_cur hd0 hl, ok_bind]
  have hs : ¬ (sigEnd % 4294967296 ≠ sigEnd) := by decide
  simp only [hs, if_false, readShort_cur h4' hl, readShort_cur h6 hl, readShort_cur h8 hl, readShort_cur h10 hl,
    readLong_cur h12 hl, readLong_cur h16 hl, readShort_cur h20 hl, ok_bind, hend, Nat.zero_mod]
  have e1 := hc.entries
  have e2 := hc.size
  have e3 := hc.offset
  rw [Nat.mod_eq_of_lt (by omega : as.length < 65536), Nat.mod_eq_of_lt (by omega : (centrals codec c 0 as).length < 4294967296),
    Nat.mod_eq_of_lt e3]
  rfl

/-! ## Searching a name -/

theorem findLoop_missing {data path : List Byte} {n s o : Nat} (hl : data.length + 100 < 4294967296) (hp : path ≠ []) :
    ∀ (as : List Add) (off pos fuel : Nat), (∀ a ∈ as, a.path.length ≤ 1024) →
      (∀ a ∈ as, normPath a.path ≠ path) →
      data.drop pos = centrals codec c off as ++ endHeader (plainInfo n s o) → as.length + 1 ≤ fuel →
      findLoop data path fuel pos = .ok 0 := by
  intro as
  induction as with
  | nil =>
    intro off pos fuel _ _ hd hf
    obtain ⟨f, rfl⟩ : ∃ f, fuel = f + 1 := ⟨fuel - 1, by omega⟩
    rw [centrals, List.nil_append] at hd
    rw [findLoop, findRound_end hd hl hp]; rfl
  | cons a t ih =>
    intro off pos fuel hn hne hd hf
    obtain ⟨f, rfl⟩ : ∃ f, fuel = f + 1 := ⟨fuel - 1, by omega⟩
    rw [centrals, List.append_assoc] at hd
    have hn1 : (newInfo codec c a off).name.length ≤ 1024 := by
      rw [newInfo_name, normPath_length]; exact hn a (by simp)
    obtain ⟨-, -, -, -, -, -, -, -, hrest, -⟩ := round_reads hd (by omega) hn1 rfl
    rw [findLoop, findRound_central hd (by omega) hn1 rfl, newInfo_name, if_neg (hne a (by simp))]
    simp only [ok_bind]
    exact ih _ _ f (fun b hb => hn b (by simp [hb])) (fun b hb => hne b (by simp [hb])) hrest (by simp at hf; omega)

theorem findLoop_found {data path rest : List Byte} (hl : data.length < 4294967296) {a : Add} {l2 : List Add}
    (ha : normPath a.path = path) (hla : a.path.length ≤ 1024) :
    ∀ (l1 : List Add) (off pos fuel : Nat), (∀ b ∈ l1, b.path.length ≤ 1024) →
      (∀ b ∈ l1, normPath b.path ≠ path) →
      data.drop pos = centrals codec c off (l1 ++ a :: l2) ++ rest → l1.length + 1 ≤ fuel →
      findLoop data path fuel pos = .ok (pos + (centrals codec c off l1).length) := by
  intro l1
  induction l1 with
  | nil =>
    intro off pos fuel _ _ hd hf
    obtain ⟨f, rfl⟩ : ∃ f, fuel = f + 1 := ⟨fuel - 1, by omega⟩
    rw [List.nil_append, centrals, List.append_assoc] at hd
    have hn1 : (newInfo codec c a off).name.length ≤ 1024 := by rw [newInfo_name, normPath_length]; exact hla
    rw [findLoop, findRound_central hd hl hn1 rfl, newInfo_name, if_pos ha]; rfl
  | cons b t ih =>
    intro off pos fuel hn hne hd hf
    obtain ⟨f, rfl⟩ : ∃ f, fuel = f + 1 := ⟨fuel - 1, by omega⟩
    rw [List.cons_append, centrals, List.append_assoc] at hd
    have hn1 : (newInfo codec c b off).name.length ≤ 1024 := by
      rw [newInfo_name, normPath_length]; exact hn b (by simp)
    obtain ⟨-, -, -, -, -, -, -, -, hrest, -⟩ := round_reads hd hl hn1 rfl
    rw [findLoop, findRound_central hd hl hn1 rfl, newInfo_name, if_neg (hne b (by simp))]
    simp only [ok_bind]
    rw [newInfo_name] at hrest
    rw [ih _ _ f (fun b hb => hn b (by simp [hb])) (fun b hb => hne b (by simp [hb])) hrest (by simp at hf; omega),
      centrals, List.length_append, central_length, newInfo_name]
    congr 1; omega

theorem findLocalLoop_found {data path rest : List Byte} (hl : data.length < 4294967296) {a : Add} {l2 : List Add}
    (ha : normPath a.path = path) (hla : a.path.length ≤ 1024) :
    ∀ (l1 : List Add) (off pos fuel : Nat), (∀ b ∈ l1, b.path.length ≤ 1024) →
      (∀ b ∈ l1, normPath b.path ≠ path) →
      data.drop pos = centrals codec c off (l1 ++ a :: l2) ++ rest → l1.length + 1 ≤ fuel →
      findLocalLoop data path fuel pos = .ok ((off + (locals codec c l1).length) % 4294967296) := by
  intro l1
  induction l1 with
  | nil =>
    intro off pos fuel _ _ hd hf
    obtain ⟨f, rfl⟩ : ∃ f, fuel = f + 1 := ⟨fuel - 1, by omega⟩
    rw [List.nil_append, centrals, List.append_assoc] at hd
    have hn1 : (newInfo codec c a off).name.length ≤ 1024 := by rw [newInfo_name, normPath_length]; exact hla
    rw [findLocalLoop, findLocalRound_central hd hl hn1 rfl, newInfo_name, if_pos ha]; rfl
  | cons b t ih =>
    intro off pos fuel hn hne hd hf
    obtain ⟨f, rfl⟩ : ∃ f, fuel = f + 1 := ⟨fuel - 1, by omega⟩
    rw [List.cons_append, centrals, List.append_assoc] at hd
    have hn1 : (newInfo codec c b off).name.length ≤ 1024 := by
      rw [newInfo_name, normPath_length]; exact hn b (by simp)
    obtain ⟨-, -, -, -, -, -, -, -, hrest, -⟩ := round_reads hd hl hn1 rfl
    rw [findLocalLoop, findLocalRound_central hd hl hn1 rfl, newInfo_name, if_neg (hne b (by simp))]
    simp only [ok_bind]
    rw [newInfo_name] at hrest
    rw [ih _ _ f (fun b hb => hn b (by simp [hb])) (fun b hb => hne b (by simp [hb])) hrest (by simp at hf; omega),
      locals_cons_length, Nat.add_assoc]

theorem position_missing {as : List Add} (h : Limits codec c as) {path : List Byte} {fuel : Nat}
    (hf : as.length + 1 ≤ fuel) (hne : ∀ a ∈ as, normPath a.path ≠ path) (has : as ≠ []) :
    getFileCentralHeaderPosition fuel (archive codec c as) path = .ok 0 := by
  unfold getFileCentralHeaderPosition
  rw [getCentralDirPosition_archive has h, ok_bind]
  by_cases hp : path = []
  · rw [if_pos (Or.inr hp)]
  · have := locals_pos (codec := codec) (c := c) has
    rw [if_neg (by rintro (h1 | h1); omega; exact hp h1)]
    exact findLoop_missing h.size hp as 0 _ fuel (fun a ha => (h.names a ha).2.1) hne (drop_centrals as) hf

theorem normPath_ne_nil {p : List Byte} (h : p ≠ []) : normPath p ≠ [] := by
  simpa [normPath] using h

/-- The central header of an entry that is the first with its name. -/
theorem position_found {l1 l2 : List Add} {a : Add} (h : Limits codec c (l1 ++ a :: l2)) {fuel : Nat}
    (hf : l1.length + 1 ≤ fuel) (hne : ∀ b ∈ l1, normPath b.path ≠ normPath a.path) :
    getFileCentralHeaderPosition fuel (archive codec c (l1 ++ a :: l2)) (normPath a.path) =
      .ok ((locals codec c (l1 ++ a :: l2)).length + (centrals codec c 0 l1).length) := by
  have has : l1 ++ a :: l2 ≠ [] := by simp
  have hna := h.names a (by simp)
  unfold getFileCentralHeaderPosition
  rw [getCentralDirPosition_archive has h, ok_bind]
  have := locals_pos (codec := codec) (c := c) has
  rw [if_neg (by rintro (h1 | h1); omega; exact normPath_ne_nil hna.1 h1)]
  exact findLoop_found (by have := h.size; omega) rfl hna.2.1 l1 0 _ fuel
    (fun b hb => (h.names b (by simp [hb])).2.1) hne (drop_centrals _) hf

theorem localPosition_found {l1 l2 : List Add} {a : Add} (h : Limits codec c (l1 ++ a :: l2)) {fuel : Nat}
    (hf : l1.length + 1 ≤ fuel) (hne : ∀ b ∈ l1, normPath b.path ≠ normPath a.path) :
    getFileLocalHeaderPosition fuel (archive codec c (l1 ++ a :: l2)) (normPath a.path) =
      .ok (locals codec c l1).length := by
  have has : l1 ++ a :: l2 ≠ [] := by simp
  have hna := h.names a (by simp)
  unfold getFileLocalHeaderPosition
  rw [getCentralDirPosition_archive has h, ok_bind]
  have := locals_pos (codec := codec) (c := c) has
  rw [if_neg (by rintro (h1 | h1); omega; exact normPath_ne_nil hna.1 h1)]
  rw [findLocalLoop_found (by have := h.size; omega) rfl hna.2.1 l1 0 _ fuel
    (fun b hb => (h.names b (by simp [hb])).2.1) hne (drop_centrals _) hf, Nat.zero_add]
  have h2 := h.size
  rw [archive_length, locals_append, List.length_append] at h2
  rw [Nat.mod_eq_of_lt (by omega)]

theorem drop_entry (l1 l2 : List Add) (a : Add) :
    (archive codec c (l1 ++ a :: l2)).drop ((locals codec c (l1 ++ a :: l2)).length + (centrals codec c 0 l1).length) =
      central (newInfo codec c a (locals codec c l1).length) ++
        (centrals codec c ((locals codec c l1).length + locLen codec c a) l2 ++ endOf codec c (l1 ++ a :: l2)) := by
  have h := drop_centrals (codec := codec) (c := c) (l1 ++ a :: l2)
  rw [centrals_append, Nat.zero_add, centrals, List.append_assoc, List.append_assoc] at h
  exact drop_add h _ rfl

theorem drop_local (l1 l2 : List Add) (a : Add) :
    (archive codec c (l1 ++ a :: l2)).drop (locals codec c l1).length =
      localHeader (newInfo codec c a 0) ++ (rawOf codec c a ++
        (locals codec c l2 ++ (centrals codec c 0 (l1 ++ a :: l2) ++ endOf codec c (l1 ++ a :: l2)))) := by
  rw [archive, locals_append, locals, List.append_assoc, List.drop_left, List.append_assoc, List.append_assoc]

/-- What `GetFileInfo` finds out about an entry. -/
theorem getFileInfo_found {l1 l2 : List Add} {a : Add} (h : Limits codec c (l1 ++ a :: l2)) {fuel : Nat}
    (hf : l1.length + 1 ≤ fuel) (hne : ∀ b ∈ l1, normPath b.path ≠ normPath a.path) :
    getFileInfo fuel (archive codec c (l1 ++ a :: l2)) (normPath a.path) =
      .ok (.noError, some { newInfo codec c a (locals codec c l1).length with
        dosTime := a.dosTime % 65536, dosDate := a.dosDate % 65536, crc := a.crc % 4294967296,
        uncompressedSize := a.content.length % 4294967296 }) := by
  have hsz := h.size
  have hl : (archive codec c (l1 ++ a :: l2)).length < 4294967296 := by omega
  have hal := archive_length (codec := codec) (c := c) (l1 ++ a :: l2)
  have hll : (locals codec c (l1 ++ a :: l2)).length =
      (locals codec c l1).length + (locLen codec c a + (locals codec c l2).length) := by
    rw [locals_append, List.length_append, locals_cons_length]
  have hnl : a.path.length ≤ 1024 := (h.names a (by simp)).2.1
  have hd := drop_entry (codec := codec) (c := c) l1 l2 a
  generalize hP : (locals codec c (l1 ++ a :: l2)).length + (centrals codec c 0 l1).length = P at hd
  have hpos := position_found h hf hne
  rw [hP] at hpos
  generalize hI : newInfo codec c a (locals codec c l1).length = I at hd
  generalize centrals codec c ((locals codec c l1).length + locLen codec c a) l2 ++ endOf codec c (l1 ++ a :: l2) = rest at hd
  have hPl := drop_len hd (by simp [central, centralHeader, le4])
  rw [central_length] at hPl
  have h0 : (archive codec c (l1 ++ a :: l2)).drop P = le4 sigCentral ++ ((central I).drop 4 ++ rest) := by
    rw [hd, central_drop0]
  have k4 := congrArg (List.drop 4) hd
  rw [List.drop_drop, central_drop4] at k4
  have k6 := drop_add k4 2 rfl
  have k8 := drop_add k6 2 rfl
  have k10 := drop_add k8 2 rfl
  have k12 := drop_add k10 2 rfl
  have k14 := drop_add k12 2 rfl
  have k16 := drop_add k14 2 rfl
  have k20 := drop_add k16 4 rfl
  have k24 := drop_add k20 4 rfl
  have k28 := drop_add k24 4 rfl
  have k30 := drop_add k28 2 rfl
  have k32 := drop_add k30 2 rfl
  have k34 := drop_add k32 2 rfl
  have k36 := drop_add k34 2 rfl
  have k38 := drop_add k36 2 rfl
  have k42 := drop_add k38 4 rfl
  have k46 := drop_add k42 4 rfl
  have hnI : I.name.length % 65536 = I.name.length := by
    rw [← hI, newInfo_name, normPath_length]; exact Nat.mod_eq_of_lt (by omega)
  have hcI : I.comment.length % 65536 = 0 := by rw [← hI]; rfl
  have hnm : readFromFile (archive codec c (l1 ++ a :: l2))
      (P + 4 + 2 + 2 + 2 + 2 + 2 + 2 + 4 + 4 + 4 + 2 + 2 + 2 + 2 + 2 + 4 + 4) I.name.length =
      .ok (I.name, P + 46 + I.name.length) := by
    unfold readFromFile
    rw [readAt_cur k46 _ rfl, ok_bind, adv_eq (by omega)]
  have hcm : readFromFile (archive codec c (l1 ++ a :: l2)) (P + 46 + I.name.length) 0 =
      .ok ([], P + 46 + I.name.length) := by
    unfold readFromFile readAt
    rw [if_pos rfl, ok_bind, adv_eq (by omega), Nat.add_zero]
  have hadv : adv (P + 46 + I.name.length) 0 = P + 46 + I.name.length := adv_eq (by omega)
  have hs : ¬ (sigCentral % 4294967296 ≠ sigCentral) := by decide
  unfold getFileInfo
  simp only [hpos, ok_bind, readLong_cur h0 hl, hs, if_false, readShort_cur k4 hl, readShort_cur k6 hl, readShort_cur k8 hl,
    readShort_cur k10 hl, readShort_cur k12 hl, readShort_cur k14 hl, readLong_cur k16 hl, readLong_cur k20 hl,
    readLong_cur k24 hl, readShort_cur k28 hl, readShort_cur k30 hl, readShort_cur k32 hl, readShort_cur k34 hl,
    readShort_cur k36 hl, readLong_cur k38 hl, readLong_cur k42 hl, hnI, hcI, hnm, Nat.zero_mod, hadv, hcm]
  have hcs : (rawOf codec c a).length < 4294967296 := by
    unfold locLen at hll; omega
  have hof : (locals codec c l1).length < 4294967296 := by omega
  subst hI
  have hm : (stored codec c a.content).2 % 65536 = (stored codec c a.content).2 := by
    unfold stored; split <;> rfl
  simp only [newInfo, hm, Nat.mod_eq_of_lt hof, Nat.zero_mod]
  rw [show (stored codec c a.content).1.length % 4294967296 = (stored codec c a.content).1.length from Nat.mod_eq_of_lt hcs]

end Verif.Zip
