import Verif.Pack.GdtfLemmas
import Verif.Pack.Props

/-!
# C78, C79: what is given to a GDTF file comes back when it is read; editing a GDTF file
-/

namespace Verif.Pack

open Verif.Zip Verif.Zip.Spec Verif.Path Verif.Path.Spec Verif.Str Spec

theorem item_plain {fs : Fs} {c : GCall} (hc : c.Usual) {i : Item} (h : c.item fs = some i) : Plain i.name := by
  cases c with
  | file p res n =>
    obtain ⟨d, -, rfl⟩ := Option.map_eq_some_iff.1 h
    simp only
    split
    · exact hc.1.2
    · rename_i hn
      exact hc.2.resolve_left hn
  | buffer n d res =>
    rw [← Option.some.inj h]
    exact hc

theorem items_plain {calls : List (Stamp × Fs × GCall)} (hc : ∀ c ∈ calls, c.2.2.Usual) : ∀ i ∈ items calls, Plain i.name := by
  intro i hi
  obtain ⟨c, hm, h⟩ := List.mem_filterMap.1 hi
  exact item_plain (hc c hm) h

/-- What the archive holds when entries have been added in any way. -/
theorem adds_hold {codec : Codec} (fuel : Nat) (as : List Add) (es : List (List Char × List Byte))
    (he : as.map (fun a => (a.path, a.content)) = es.map (fun e => (enc e.1, e.2))) (hb : ∀ e ∈ es, '\\' ∉ e.1)
    (h : Fits codec false (unused [] es)) (hf : es.length + 1 ≤ fuel) :
    ∃ z, addEntries codec fuel (openNewWrite false) as = .ok z ∧ Holds codec fuel z.data (unused [] es) := by
  obtain ⟨stamps, rfl⟩ := stamps_exist as es 0 he
  obtain ⟨z, hz, e, hread⟩ := pack_read (c := false) (fun h => absurd h (by simp)) fuel stamps es hb h hf
  refine ⟨z, hz, ?_, ?_⟩
  · intro stale
    have hw := (hread stale ⟨[], [], 0, 0, 0, 0, 0, 0, 0, 0, 0, 0, 0⟩).1
    rw [List.map_map] at hw
    exact ⟨e, hw⟩
  · intro garbage e' he'
    exact (hread 0#8 garbage).2 (enc e'.1, e'.2) (List.mem_map.2 ⟨e', he', rfl⟩)

theorem holds_ne {codec : Codec} {fuel : Nat} {data : List Byte} {es : List (List Char × List Byte)} (h : Holds codec fuel data es)
    (hne : es ≠ []) : data ≠ [] := by
  intro hd
  obtain ⟨e, hw⟩ := h.1 0#8
  rw [hd] at hw
  exact hne (List.map_eq_nil_iff.1 (walk_nil hw))

theorem mesh_name_no_desc {i : Item} (hr : i.res = .modelGLTF ∨ i.res = .modelSVG ∨ i.res = .model3DS) : i.entry ≠ gdtfDesc := by
  intro h
  have h := congrArg List.head? h
  unfold Item.entry at h
  have e1 : gdtfDesc.head? = some 'd' := rfl
  rw [e1] at h
  rcases hr with hr | hr | hr <;> rw [hr] at h <;> exact absurd h (by simp [location])

theorem entry_name {i j : Item} (hi : Plain i.name) (hj : Plain j.name) (h : i.entry = j.entry) : i.name = j.name := by
  have hend : ∀ L : List (List Char), L.flatMap (· ++ ['/']) = [] ∨ ∃ b, L.flatMap (· ++ ['/']) = b ++ ['/'] := by
    intro L
    rcases List.eq_nil_or_concat L with rfl | ⟨t, x, rfl⟩
    · exact Or.inl rfl
    · exact Or.inr ⟨t.flatMap (· ++ ['/']) ++ x, by simp⟩
  unfold Item.entry at h
  rw [← lastName_eq _ i.name (hend (location i.res)) (plain_no_slash hi), h, lastName_eq _ j.name (hend _) (plain_no_slash hj)]

/-! ## C78 -/

/-- C78: reading an archive that has a description and resources at the usual places, in any order, however it has been made (by any
program, compressed or not). No other file changes, except those that the object has read before (they are
deleted); the working folder may have other files in it. -/
theorem C78_read_partial {codec : Codec} {fuel : Nat} {data : List Byte} (B : List (List Char)) (g n : List Char)
    (hW : ∀ q ∈ B ++ [g, n], Plain q) (pre post : List Item) (xml : List Byte)
    (hn : ∀ i ∈ pre ++ post, Plain i.name) (hd : ∀ i ∈ pre ++ post, i.entry ≠ gdtfDesc)
    (hp : (pre ++ post).Pairwise (fun a b => a.entry ≠ b.entry))
    (hh : Holds codec fuel data (package pre ++ (gdtfDesc, xml) :: package post))
    (stale : Byte) (garbage : FileInfo) (r0 : Fix) (later : Fs) (hl : later.dir (folderText B) = true) :
    ∃ r fs, r0.fromBuffer codec fuel stale garbage ([] :: (B ++ [g, n])) later data = .ok (.noError, r, fs) ∧
      Restored (B ++ [g, n]) (pre ++ post) xml r0 later r fs ∧ r.open_ = true ∧ r.added = [] ∧
      r.meshes = (pre ++ post).foldl (fun m i => setMesh m i.name i.data) [] ∧ r.zip = r0.zip ∧
      fs.dir (folderText (B ++ [g, n])) = true ∧ fs.dir (folderText B) = true ∧ (∀ q,
        (∀ i ∈ pre ++ post, q ≠ i.place (B ++ [g, n])) → fs.file q = (r0.dropFixture later).file q) := by
  obtain ⟨e, hw⟩ := hh.1 stale
  refine from_package B g n hW pre post xml hn hd hp e ?_ ?_ r0 later hl
  · rw [hw, List.map_map]; rfl
  · intro p hp
    obtain ⟨q, hq, rfl⟩ := List.mem_map.1 hp
    exact hh.2 garbage q hq

/-- The same from a file. -/
theorem read_file {codec : Codec} {fuel : Nat} {data : List Byte} {W : List (List Char)} {stale : Byte} {garbage : FileInfo} {r0 : Fix}
    {later : Fs} {p : Place} (hp : p.Usual) (hne : data ≠ []) (hf : later.file p.text = some data) :
    r0.readFile codec fuel stale garbage ([] :: W) later p.text = r0.fromBuffer codec fuel stale garbage ([] :: W) later data := by
  unfold Fix.readFile Fs.content
  rw [setText_plain hp, Option.bind_some, fullPath_plain _ _ hp.1 hp.2]
  have : later.file (folderText p.folders ++ p.name) = some data := hf
  rw [this]
  simp only
  rw [if_pos (List.length_pos_iff.2 hne)]

theorem written {codec : Codec} (fuel : Nat)
    (order : List (List Char × List Byte) → List (List Char × List Byte)) (horder : ∀ l, (order l).Perm l) (stamps : Nat → Stamp)
    (calls : List (Stamp × Fs × GCall)) (hc : ∀ c ∈ calls, c.2.2.Usual) (p : Place) (hp : p.Usual) (xml : List Byte)
    (hfit : Fits codec false (unused [] (package (items calls) ++ [(gdtfDesc, xml)]))) (hf : calls.length + 2 ≤ fuel)
    (o : Fix) (fs : Fs) :
    ∃ o1 fs1 o2, o.openWrite fs p.text = (.noError, o1, fs1) ∧
      (∀ q, q ≠ p.text → (∀ i < o.count, o.at_ i ≠ q) → fs1.file q = fs.file q) ∧
      gperform codec fuel o1 calls = .ok o2 ∧
      ∀ disk : Fs, disk.dir (folderText p.folders) = true → ∃ o3 disk',
        o2.close codec fuel order stamps disk xml = .ok (.noError, o3, disk') ∧
        disk'.file p.text = some o3.buffer ∧ (∀ q, q ≠ p.text → disk'.file q = disk.file q) ∧
        Holds codec fuel o3.buffer (unused [] (package (items calls) ++ [(gdtfDesc, xml)])) ∧
        (o3.open_ = true ∧ o3.meshes = [] ∧ ∃ z, o3.zip = some z ∧ z.write = false ∧ z.data = o3.buffer) ∧
        o3.path = some ⟨[] :: p.folders, p.name⟩ := by
  have hplain := items_plain hc
  have hlen : (items calls).length ≤ calls.length := List.length_filterMap_le ..
  obtain ⟨z, hz, hh⟩ := adds_hold fuel (calls.filterMap callAdd ++ stampAll stamps 0 [(gdtfDesc, xml)])
    (package (items calls) ++ [(gdtfDesc, xml)]) (by
      rw [List.map_append, callAdd_pairs, stampAll_pairs, List.map_append])
    (by
      intro e he
      rcases List.mem_append.1 he with he | he
      · obtain ⟨i, hi, rfl⟩ := List.mem_map.1 he
        exact entry_no_backslash i (hplain i hi)
      · rw [List.mem_singleton.1 he]
        exact (by decide : '\\' ∉ gdtfDesc))
    hfit (by simp [package]; omega)
  rw [addEntries_append] at hz
  cases hz1 : addEntries codec fuel (openNewWrite false) (calls.filterMap callAdd) with
  | error x => rw [hz1] at hz; exact absurd hz (by simp [bind, Except.bind])
  | ok z1 =>
    rw [hz1] at hz
    have hz : addEntries codec fuel z1 (stampAll stamps 0 [(gdtfDesc, xml)]) = .ok z := hz
    refine ⟨_, _, _, rfl, ?_, gperform_eq calls hc _ (openNewWrite false) z1 rfl rfl hz1, ?_⟩
    · intro q hq hl
      rw [drop_file _ _ _ hl, setText_plain hp]
      split
      · rw [remove_plain _ _ _ hp.1 hp.2]
        exact put_other _ _ _ _ hq
      · rfl
    · intro disk hdir
      have hord : order [] = [] := List.perm_nil.1 (horder [])
      unfold Fix.close
      rw [if_neg (by simp)]
      simp only
      unfold Fix.exports
      simp only
      rw [hord, List.filterMap_nil, hz]
      have hne : z.data ≠ [] := by
        refine holds_ne hh ?_
        intro h
        cases hu : package (items calls) with
        | nil => rw [hu] at h; simp [unused] at h
        | cons e t => rw [hu, List.cons_append, unused, if_neg (by simp)] at h; simp at h
      simp only [bind, Except.bind]
      unfold saveZip
      rw [if_neg hne, setText_plain hp, write_plain _ _ _ hp.1 hp.2 hdir]
      exact ⟨_, _, rfl, put_same .., fun q hq => put_other _ _ _ _ hq, hh, ⟨rfl, rfl, _, rfl, rfl, rfl⟩, rfl⟩

/-- C78: an application opens a GDTF file for writing — with any object, whatever it has done before —, gives resources to it, in any
order and number, as files or as buffers, and closes it. The file has then exactly the bytes that the object hands out. Whoever reads
the file or the bytes later, with any object, whatever it has done before, gets the description as it was written and exactly the
resources that have been given, in the order of the calls, every path once. -/
theorem C78_round_trip_partial {codec : Codec} (fuel : Nat)
    (order : List (List Char × List Byte) → List (List Char × List Byte)) (horder : ∀ l, (order l).Perm l) (stamps : Nat → Stamp)
    (B : List (List Char)) (g n : List Char) (hW : ∀ q ∈ B ++ [g, n], Plain q)
    (calls : List (Stamp × Fs × GCall)) (hc : ∀ c ∈ calls, c.2.2.Usual) (hx : ∀ i ∈ items calls, i.entry ≠ gdtfDesc)
    (p : Place) (hp : p.Usual) (xml : List Byte)
    (hfit : Fits codec false (package (once [] (items calls)) ++ [(gdtfDesc, xml)])) (hf : calls.length + 2 ≤ fuel)
    (o : Fix) (fs : Fs) :
    ∃ o1 fs1 o2, o.openWrite fs p.text = (.noError, o1, fs1) ∧
      (∀ q, q ≠ p.text → (∀ i < o.count, o.at_ i ≠ q) → fs1.file q = fs.file q) ∧
      gperform codec fuel o1 calls = .ok o2 ∧
      ∀ disk : Fs, disk.dir (folderText p.folders) = true → ∃ o3 disk',
        o2.close codec fuel order stamps disk xml = .ok (.noError, o3, disk') ∧
        disk'.file p.text = some o3.buffer ∧ (∀ q, q ≠ p.text → disk'.file q = disk.file q) ∧
        ∀ (stale : Byte) (garbage : FileInfo) (r0 : Fix) (later : Fs), later.dir (folderText B) = true →
          (∃ r fs', r0.fromBuffer codec fuel stale garbage ([] :: (B ++ [g, n])) later o3.buffer = .ok (.noError, r, fs') ∧
            Restored (B ++ [g, n]) (once [] (items calls)) xml r0 later r fs') ∧
          (later.file p.text = some o3.buffer →
            ∃ r fs', r0.readFile codec fuel stale garbage ([] :: (B ++ [g, n])) later p.text = .ok (.noError, r, fs') ∧
              Restored (B ++ [g, n]) (once [] (items calls)) xml r0 later r fs') := by
  have hplain := items_plain hc
  have hun : unused [] (package (items calls) ++ [(gdtfDesc, xml)]) = package (once [] (items calls)) ++ [(gdtfDesc, xml)] := by
    rw [unused_last _ _ _ _ (by simp), unused_package]
    intro e he
    obtain ⟨i, hi, rfl⟩ := List.mem_map.1 he
    exact hx i hi
  obtain ⟨o1, fs1, o2, h1, h2, h3, h4⟩ := written fuel order horder stamps calls hc p hp xml (by rw [hun]; exact hfit) hf o fs
  refine ⟨o1, fs1, o2, h1, h2, h3, ?_⟩
  intro disk hdir
  obtain ⟨o3, disk', g1, g2, g3, g4, -⟩ := h4 disk hdir
  rw [hun] at g4
  refine ⟨o3, disk', g1, g2, g3, ?_⟩
  intro stale garbage r0 later hl
  obtain ⟨r, fs', r1, r2, -⟩ := C78_read_partial B g n hW (once [] (items calls)) [] xml
    (fun i hi => hplain i (once_sub _ _ i (by simpa using hi)).1) (fun i hi => hx i (once_sub _ _ i (by simpa using hi)).1)
    (by simpa using once_nodup _ _) g4 stale garbage r0 later hl
  rw [List.append_nil] at r2
  refine ⟨⟨r, fs', r1, r2⟩, ?_⟩
  intro hlater
  exact ⟨r, fs', by rw [read_file hp (holds_ne g4 (by simp)) hlater]; exact r1, r2⟩

/-- C78: nothing is lost when the paths are different. -/
theorem C78_complete (calls : List (Stamp × Fs × GCall)) (h : (items calls).Pairwise (fun a b => a.entry ≠ b.entry)) :
    once [] (items calls) = items calls := once_self _ _ h (by simp)

/-- C78: the paths are different as soon as the names are. -/
theorem C78_paths (i j : Item) (hi : Plain i.name) (hj : Plain j.name) (h : i.name ≠ j.name) : i.entry ≠ j.entry :=
  fun he => h (entry_name hi hj he)

/-- C78: what the calls return: a buffer is taken by every object that has an archive, a file when it exists. -/
theorem C78_calls {codec : Codec} {fuel : Nat} (s : Stamp) (fs : Fs) (o : Fix) :
    (∀ n d res e o', o.addBuffer codec fuel s n d res = .ok (e, o') → (e = .noError ↔ o.open_ = true ∧ o.zip.isSome) ∧
      (e ≠ .noError → o' = o)) ∧
    (∀ (p : Place) res n e o', p.Usual → o.addFile codec fuel s fs p.text res n = .ok (e, o') →
      (e = .noError ↔ o.open_ = true ∧ o.zip.isSome ∧ (fs.file p.text).isSome) ∧ (e ≠ .noError → o' = o)) := by
  constructor
  · intro n d res e o' h
    unfold Fix.addBuffer at h
    by_cases ho : o.open_ = false
    · rw [if_pos ho] at h
      cases h
      simp [ho]
    · rw [if_neg ho] at h
      cases hz : o.zip with
      | none => rw [hz] at h; cases h; simp
      | some z =>
        rw [hz] at h
        simp only [bind, Except.bind] at h
        cases ha : addOne codec fuel z s (entryText res n) d with
        | error x => rw [ha] at h; exact absurd h (by simp)
        | ok v => rw [ha] at h; cases h; simpa using ho
  · intro p res n e o' hp h
    unfold Fix.addFile at h
    by_cases ho : o.open_ = false
    · rw [if_pos ho] at h
      cases h
      simp [ho]
    · rw [if_neg ho] at h
      cases hz : o.zip with
      | none => rw [hz] at h; cases h; simp
      | some z =>
        rw [hz, setText_plain hp] at h
        simp only at h
        rw [fullPath_plain _ _ hp.1 hp.2] at h
        have ht : folderText p.folders ++ p.name = p.text := rfl
        rw [ht] at h
        cases hf : fs.file p.text with
        | none => rw [hf] at h; cases h; simp
        | some d =>
          rw [hf] at h
          simp only [bind, Except.bind] at h
          cases ha : addOne codec fuel z s (entryText res (if n = [] then p.name else n)) d with
          | error x => rw [ha] at h; exact absurd h (by simp)
          | ok v => rw [ha] at h; cases h; simpa using ho

/-! ## C79 -/

theorem meshName_keep (i : Item) : (meshName i.name).map (fun n => (n, i.data)) = (keep i).map (fun j => (j.entry, j.data)) := by
  unfold meshName keep endsWith
  have h : ∀ t : List Char, (t.isSuffixOf i.name = true) ↔ t <:+ i.name := fun t => List.isSuffixOf_iff_suffix
  by_cases h1 : "glb".toList <:+ i.name
  · rw [if_pos ((h _).2 h1), if_pos h1]
    simp only [Option.map_some]
    rw [entryText_eq _ _ i.data]
  · rw [if_neg (fun x => h1 ((h _).1 x)), if_neg h1]
    by_cases h2 : "svg".toList <:+ i.name
    · rw [if_pos ((h _).2 h2), if_pos h2]
      simp only [Option.map_some]
      rw [entryText_eq _ _ i.data]
    · rw [if_neg (fun x => h2 ((h _).1 x)), if_neg h2]
      by_cases h3 : "3ds".toList <:+ i.name
      · rw [if_pos ((h _).2 h3), if_pos h3]
        simp only [Option.map_some]
        rw [entryText_eq _ _ i.data]
      · rw [if_neg (fun x => h3 ((h _).1 x)), if_neg h3]
        rfl

theorem keep_name {i j : Item} (h : keep i = some j) :
    j.name = i.name ∧ j.data = i.data ∧ (j.res = .modelGLTF ∨ j.res = .modelSVG ∨ j.res = .model3DS) := by
  unfold keep at h
  split at h
  · cases h; simp
  · split at h
    · cases h; simp
    · split at h
      · cases h; simp
      · exact absurd h (by simp)

theorem keep_main {i : Item} (h : MainMesh i) : keep i = some i := by
  have hdiff : ∀ a b : List Char, a.length = b.length → a <:+ i.name → b <:+ i.name → a = b := by
    intro a b hl ha hb
    rcases List.suffix_or_suffix_of_suffix ha hb with h | h
    · exact h.eq_of_length hl
    · exact (h.eq_of_length hl.symm).symm
  have e1 : i = { i with res := i.res } := rfl
  unfold keep
  rcases h with ⟨hr, h⟩ | ⟨hr, h⟩ | ⟨hr, h⟩
  · rw [if_pos h, ← hr]
  · rw [if_neg (fun x => absurd (hdiff _ _ (by decide) x h) (by decide)), if_pos h, ← hr]
  · rw [if_neg (fun x => absurd (hdiff _ _ (by decide) x h) (by decide)),
      if_neg (fun x => absurd (hdiff _ _ (by decide) x h) (by decide)), if_pos h, ← hr]

/-- Writing again an object whose map has these contents. -/
theorem refreshed {codec : Codec} (fuel : Nat)
    (order : List (List Char × List Byte) → List (List Char × List Byte)) (horder : ∀ l, (order l).Perm l) (stamps : Nat → Stamp)
    (l a : List Item) (hn : ∀ i ∈ l, Plain i.name) (ha : ∀ i ∈ a, Plain i.name) (xml : List Byte) (r : Fix) (ho : r.open_ = true)
    (hm : r.meshes = l.map (fun i => (i.name, i.data))) (hadd : r.added = package a)
    (hfit : ∀ L : List Item, L.Perm (l.filterMap keep) → Fits codec false (unused [] ((gdtfDesc, xml) :: (package L ++ package a))))
    (hf : l.length + a.length + 2 ≤ fuel) :
    ∃ r' L, L.Perm (l.filterMap keep) ∧ r.refresh codec fuel order stamps xml = .ok (.noError, r') ∧
      Holds codec fuel r'.buffer (unused [] ((gdtfDesc, xml) :: (package L ++ package a))) ∧
      (r'.open_ = true ∧ r'.added = r.added ∧ ∃ z, r'.zip = some z ∧ z.write = false) := by
  obtain ⟨k, hkd⟩ : ∃ k : List Item, k = (order r.meshes).map (fun e => ⟨.fixture, e.1, e.2⟩) := ⟨_, rfl⟩
  have hk : order r.meshes = k.map (fun i => (i.name, i.data)) := by rw [hkd, List.map_map]; simp [Function.comp_def]
  have hperm : k.Perm (l.map (fun i => ⟨.fixture, i.name, i.data⟩)) := by
    have := (horder r.meshes).map (fun e => (⟨.fixture, e.1, e.2⟩ : Item))
    rw [← hkd, hm, List.map_map] at this
    exact this
  have hex : r.exports order xml = (gdtfDesc, xml) :: package (k.filterMap keep) := by
    unfold Fix.exports package
    rw [hk, List.filterMap_map, List.map_filterMap]
    congr 2
    funext i
    exact meshName_keep i
  have hLp : (k.filterMap keep).Perm (l.filterMap keep) := by
    have := hperm.filterMap keep
    rw [List.filterMap_map] at this
    exact this
  have hlen : (k.filterMap keep).length ≤ l.length := by
    have := List.length_filterMap_le keep k
    have := hperm.length_eq
    rw [List.length_map] at this
    omega
  obtain ⟨z, hz, hh⟩ := adds_hold (codec := codec) fuel (stampAll stamps 0 ((gdtfDesc, xml) :: (package (k.filterMap keep) ++ package a)))
    ((gdtfDesc, xml) :: (package (k.filterMap keep) ++ package a)) (stampAll_pairs ..)
    (by
      intro e he
      rcases List.mem_cons.1 he with rfl | he
      · exact (by decide : '\\' ∉ gdtfDesc)
      rcases List.mem_append.1 he with he | he
      · obtain ⟨i, hi, rfl⟩ := List.mem_map.1 he
        obtain ⟨j, hj, hij⟩ := List.mem_filterMap.1 hi
        obtain ⟨x, hx, hxj⟩ := List.mem_map.1 (hperm.mem_iff.1 hj)
        exact entry_no_backslash i (by rw [(keep_name hij).1, ← hxj]; exact hn x hx)
      · obtain ⟨i, hi, rfl⟩ := List.mem_map.1 he
        exact entry_no_backslash i (ha i hi))
    (hfit _ hLp) (by simp [package]; omega)
  refine ⟨{ r with zip := some { z with write := false }, path := none, buffer := z.data }, k.filterMap keep, hLp, ?_, hh,
    ⟨ho, rfl, _, rfl, rfl⟩⟩
  unfold Fix.refresh
  rw [if_neg (by simp [ho]), hex, hadd, List.cons_append, hz]
  rfl

theorem kept_distinct {l L : List Item} (hn : ∀ i ∈ l, Plain i.name) (hcase : l.Pairwise (fun a b => eqNoCase a.name b.name = false))
    (hL : L.Perm (l.filterMap keep)) :
    (∀ i ∈ L, Plain i.name ∧ i.entry ≠ gdtfDesc) ∧ L.Pairwise (fun a b => a.entry ≠ b.entry) := by
  have hmem : ∀ i ∈ L, ∃ j ∈ l, keep j = some i := by
    intro i hi
    obtain ⟨j, hj, h⟩ := List.mem_filterMap.1 (hL.mem_iff.1 hi)
    exact ⟨j, hj, h⟩
  have hpl : ∀ i ∈ L, Plain i.name := by
    intro i hi
    obtain ⟨j, hj, h⟩ := hmem i hi
    rw [(keep_name h).1]
    exact hn j hj
  refine ⟨fun i hi => ⟨hpl i hi, ?_⟩, ?_⟩
  · obtain ⟨j, hj, h⟩ := hmem i hi
    exact mesh_name_no_desc (keep_name h).2.2
  · have h1 : (l.filterMap keep).Pairwise (fun a b => a.name ≠ b.name) := by
      rw [List.pairwise_filterMap]
      refine hcase.imp ?_
      intro a b hab x hx y hy he
      rw [(keep_name hx).1, (keep_name hy).1] at he
      rw [he] at hab
      simp [eqNoCase] at hab
    have h2 : L.Pairwise (fun a b => a.name ≠ b.name) := (hL.pairwise_iff (fun {a b} h => Ne.symm h)).2 h1
    refine h2.imp_of_mem ?_
    intro a b ha hb hab he
    exact hab (entry_name (hpl a ha) (hpl b hb) he)

/-- C79: a fixture that has been read is written again. Of its resources exactly those are in the new bytes whose names end as those of
meshes and symbols do, in any order, each as a main mesh of the kind its name shows. Names are different without regard to case. -/
theorem C79_edit_partial {codec : Codec} (fuel : Nat)
    (order : List (List Char × List Byte) → List (List Char × List Byte)) (horder : ∀ l, (order l).Perm l) (stamps : Nat → Stamp)
    (B : List (List Char)) (g n : List Char) (hW : ∀ q ∈ B ++ [g, n], Plain q) (data : List Byte) (pre post : List Item)
    (xml xml' : List Byte) (hn : ∀ i ∈ pre ++ post, Plain i.name) (hd : ∀ i ∈ pre ++ post, i.entry ≠ gdtfDesc)
    (hcase : (pre ++ post).Pairwise (fun a b => eqNoCase a.name b.name = false))
    (hh : Holds codec fuel data (package pre ++ (gdtfDesc, xml) :: package post))
    (hfit : ∀ L : List Item, L.Perm ((pre ++ post).filterMap keep) → Fits codec false ((gdtfDesc, xml') :: package L))
    (hf : (pre ++ post).length + 2 ≤ fuel)
    (stale : Byte) (garbage : FileInfo) (r0 : Fix) (later : Fs) (hl : later.dir (folderText B) = true) :
    ∃ r fs r' L, r0.fromBuffer codec fuel stale garbage ([] :: (B ++ [g, n])) later data = .ok (.noError, r, fs) ∧
      r.refresh codec fuel order stamps xml' = .ok (.noError, r') ∧ L.Perm ((pre ++ post).filterMap keep) ∧
      ∀ (stale : Byte) (garbage : FileInfo) (r1 : Fix) (later' : Fs), later'.dir (folderText B) = true →
        ∃ r2 fs2, r1.fromBuffer codec fuel stale garbage ([] :: (B ++ [g, n])) later' r'.buffer = .ok (.noError, r2, fs2) ∧
          Restored (B ++ [g, n]) L xml' r1 later' r2 fs2 := by
  have hp : (pre ++ post).Pairwise (fun a b => a.entry ≠ b.entry) := by
    refine hcase.imp_of_mem ?_
    intro a b ha hb hab he
    rw [entry_name (hn a ha) (hn b hb) he] at hab
    simp [eqNoCase] at hab
  obtain ⟨r, fs, h1, -, h3, h4, h5, -⟩ := C78_read_partial B g n hW pre post xml hn hd hp hh stale garbage r0 later hl
  rw [meshes_distinct _ hcase [] (by simp), List.nil_append] at h5
  have hself : ∀ L : List Item, L.Perm ((pre ++ post).filterMap keep) →
      unused [] ((gdtfDesc, xml') :: (package L ++ package [])) = (gdtfDesc, xml') :: package L := by
    intro L hL
    obtain ⟨k1, k2⟩ := kept_distinct hn hcase hL
    rw [show package [] = [] from rfl, List.append_nil]
    refine unused_self _ _ (List.pairwise_cons.2 ⟨?_, ?_⟩) (by simp)
    · intro e he
      obtain ⟨i, hi, rfl⟩ := List.mem_map.1 he
      exact fun h => (k1 i hi).2 h.symm
    · exact List.pairwise_map.2 k2
  obtain ⟨r', L, g1, g2, g3, -⟩ := refreshed fuel order horder stamps (pre ++ post) [] hn (by simp) xml' r h3 h5 h4
    (fun L hL => by rw [hself L hL]; exact hfit L hL) (by simpa using hf)
  rw [hself L g1] at g3
  obtain ⟨k1, k2⟩ := kept_distinct hn hcase g1
  refine ⟨r, fs, r', L, h1, g2, g1, ?_⟩
  intro stale garbage r1 later' hl'
  obtain ⟨r2, fs2, q1, q2, -⟩ := C78_read_partial B g n hW [] L xml' (fun i hi => (k1 i hi).1) (fun i hi => (k1 i hi).2) k2 g3 stale garbage r1
    later' hl'
  exact ⟨r2, fs2, q1, q2⟩

/-- C79: nothing is lost when all resources are main meshes and symbols. -/
theorem C79_main_meshes (l L : List Item) (h : ∀ i ∈ l, MainMesh i) (hL : L.Perm (l.filterMap keep)) : L.Perm l := by
  have : l.filterMap keep = l := by
    clear hL
    induction l with
    | nil => rfl
    | cons i t ih => rw [List.filterMap_cons, keep_main (h i (by simp)), ih (fun j hj => h j (by simp [hj]))]
  rwa [this] at hL

/-- C79: a new fixture is written to bytes without closing the file. The resources that have been given as buffers are in them, in the
order of the calls, every path once. -/
theorem C79_buffers_partial {codec : Codec} (fuel : Nat)
    (order : List (List Char × List Byte) → List (List Char × List Byte)) (horder : ∀ l, (order l).Perm l) (stamps : Nat → Stamp)
    (B : List (List Char)) (g n : List Char) (hW : ∀ q ∈ B ++ [g, n], Plain q)
    (calls : List (Stamp × Fs × GCall)) (hc : ∀ c ∈ calls, c.2.2.Usual) (hx : ∀ i ∈ items calls, i.entry ≠ gdtfDesc)
    (text : List Char) (xml : List Byte)
    (hfit0 : Fits codec false (package (once [] (items calls))))
    (hfit : Fits codec false ((gdtfDesc, xml) :: package (once [] (bufferItems calls)))) (hf : calls.length + 2 ≤ fuel)
    (o : Fix) (fs : Fs) :
    ∃ o1 fs1 o2 o3, o.openWrite fs text = (.noError, o1, fs1) ∧ gperform codec fuel o1 calls = .ok o2 ∧
      o2.refresh codec fuel order stamps xml = .ok (.noError, o3) ∧
      ∀ (stale : Byte) (garbage : FileInfo) (r0 : Fix) (later : Fs), later.dir (folderText B) = true →
        ∃ r fs', r0.fromBuffer codec fuel stale garbage ([] :: (B ++ [g, n])) later o3.buffer = .ok (.noError, r, fs') ∧
          Restored (B ++ [g, n]) (once [] (bufferItems calls)) xml r0 later r fs' := by
  have hplain := items_plain hc
  have hsub : ∀ i ∈ bufferItems calls, i ∈ items calls := by
    intro i hi
    obtain ⟨c, hm, h⟩ := List.mem_filterMap.1 hi
    refine List.mem_filterMap.2 ⟨c, hm, ?_⟩
    cases hc : c.2.2 with
    | file p res n => rw [hc] at h; exact absurd h (by simp)
    | buffer n d res => rw [hc] at h; exact h
  have hlen : (items calls).length ≤ calls.length := List.length_filterMap_le ..
  have hlenb : (bufferItems calls).length ≤ calls.length := List.length_filterMap_le ..
  obtain ⟨z, hz, -⟩ := adds_hold (codec := codec) fuel (calls.filterMap callAdd) (package (items calls)) (callAdd_pairs _)
    (by
      intro e he
      obtain ⟨i, hi, rfl⟩ := List.mem_map.1 he
      exact entry_no_backslash i (hplain i hi))
    (by rw [unused_package]; exact hfit0) (by simp [package]; omega)
  have hu : unused [] ((gdtfDesc, xml) :: package (bufferItems calls)) = (gdtfDesc, xml) :: package (once [] (bufferItems calls)) := by
    rw [unused, if_neg (by simp), List.nil_append]
    congr 1
    rw [unused_package]
    congr 1
    have : ∀ (l : List Item) used, (∀ i ∈ l, i.entry ≠ gdtfDesc) → once (gdtfDesc :: used) l = once used l := by
      intro l
      induction l with
      | nil => intro _ _; rfl
      | cons i t ih =>
        intro used h
        rw [once, once]
        have hi := h i (by simp)
        by_cases hm : i.entry ∈ used
        · rw [if_pos (by simp [hm]), if_pos hm, ih _ (fun j hj => h j (by simp [hj]))]
        · rw [if_neg (by simp [hm, hi]), if_neg hm, List.cons_append, ih _ (fun j hj => h j (by simp [hj]))]
    exact this _ [] (fun i hi => hx i (hsub i hi))
  obtain ⟨r', L, q1, q2, q3, -⟩ := refreshed (codec := codec) fuel order horder stamps [] (bufferItems calls) (by simp)
    (fun i hi => hplain i (hsub i hi)) xml
    { (o.openWrite fs text).2.1 with zip := some z, added := (o.openWrite fs text).2.1.added ++ package (bufferItems calls) } rfl rfl rfl
    (by
      intro L hL
      rw [List.perm_nil.1 hL]
      show Fits codec false (unused [] ((gdtfDesc, xml) :: package (bufferItems calls)))
      rw [hu]; exact hfit)
    (by simp; omega)
  rw [List.perm_nil.1 q1] at q3
  have q3 : Holds codec fuel r'.buffer (unused [] ((gdtfDesc, xml) :: package (bufferItems calls))) := q3
  rw [hu] at q3
  refine ⟨_, _, _, r', rfl, gperform_eq calls hc _ (openNewWrite false) z rfl rfl hz, q2, ?_⟩
  intro stale garbage r0 later hl
  obtain ⟨r, fs', r1, r2, -⟩ := C78_read_partial B g n hW [] (once [] (bufferItems calls)) xml
    (fun i hi => hplain i (hsub i (once_sub _ _ i hi).1)) (fun i hi => hx i (hsub i (once_sub _ _ i hi).1))
    (once_nodup _ _) q3 stale garbage r0 later hl
  exact ⟨r, fs', r1, r2⟩

/-! ## Violations of C78 -/

theorem perform_buffer {codec : Codec} {fuel : Nat} {o o2 : Fix} {s : Stamp} {fs : Fs} {n : List Char} {d : List Byte} {res : Res}
    {t : List (Stamp × Fs × GCall)} (ho : o.open_ = true) (hz : o.zip.isSome)
    (h : gperform codec fuel o ((s, fs, .buffer n d res) :: t) = .ok o2) :
    ∃ o', o.addBuffer codec fuel s n d res = .ok (.noError, o') ∧ gperform codec fuel o' t = .ok o2 ∧ o'.open_ = true ∧ o'.zip.isSome := by
  rw [gperform] at h
  cases ha : o.addBuffer codec fuel s n d res with
  | error x => rw [ha] at h; exact absurd h (by simp [bind, Except.bind])
  | ok v =>
    obtain ⟨e, o'⟩ := v
    rw [ha] at h
    have he := (((C78_calls (codec := codec) (fuel := fuel) s fs o).1 n d res e o' ha).1).2 ⟨ho, hz⟩
    subst he
    refine ⟨o', rfl, h, ?_⟩
    unfold Fix.addBuffer at ha
    obtain ⟨z, hz⟩ := Option.isSome_iff_exists.1 hz
    rw [if_neg (by simp [ho]), hz] at ha
    simp only [bind, Except.bind] at ha
    cases hx : addOne codec fuel z s (entryText res n) d with
    | error x => rw [hx] at ha; exact absurd ha (by simp)
    | ok v => rw [hx] at ha; cases ha; exact ⟨ho, rfl⟩

/-- C78 is violated: a resource that is given twice with the same name (to replace it) stays as it was first given, although both calls
and `Close` report success. -/
theorem C78_same_path_violated {codec : Codec} (fuel : Nat)
    (order : List (List Char × List Byte) → List (List Char × List Byte)) (horder : ∀ l, (order l).Perm l) (stamps : Nat → Stamp)
    (B : List (List Char)) (g n : List Char) (hW : ∀ q ∈ B ++ [g, n], Plain q) (s1 s2 : Stamp) (m : List Char) (hm : Plain m)
    (res : Res) (d1 d2 : List Byte) (hx : Item.entry ⟨res, m, d1⟩ ≠ gdtfDesc) (p : Place) (hp : p.Usual) (xml : List Byte)
    (hfit : Fits codec false [(Item.entry ⟨res, m, d1⟩, d1), (gdtfDesc, xml)]) (hf : 4 ≤ fuel) (fs : Fs) :
    ∃ o1 fs1 o2 o3, Fix.openWrite fs {} p.text = (.noError, o1, fs1) ∧
      o1.addBuffer codec fuel s1 m d1 res = .ok (.noError, o2) ∧ o2.addBuffer codec fuel s2 m d2 res = .ok (.noError, o3) ∧
      ∀ disk : Fs, disk.dir (folderText p.folders) = true → ∃ o4 disk',
        o3.close codec fuel order stamps disk xml = .ok (.noError, o4, disk') ∧
        ∀ (stale : Byte) (garbage : FileInfo) (r0 : Fix) (later : Fs), later.dir (folderText B) = true →
          ∃ r fs', r0.fromBuffer codec fuel stale garbage ([] :: (B ++ [g, n])) later o4.buffer = .ok (.noError, r, fs') ∧
            r.count = 1 ∧ fs'.file (r.at_ 0) = some d1 := by
  have hfe : Item.entry ⟨res, m, d2⟩ = Item.entry ⟨res, m, d1⟩ := rfl
  have hitems : items [(s1, fs, .buffer m d1 res), (s2, fs, .buffer m d2 res)] = [⟨res, m, d1⟩, ⟨res, m, d2⟩] := rfl
  have honce : once [] [⟨res, m, d1⟩, ⟨res, m, d2⟩] = [⟨res, m, d1⟩] := by
    rw [once, if_neg (by simp), once, if_pos (by rw [hfe]; simp)]
    rfl
  obtain ⟨o1, fs1, o3, h1, -, h3, h4⟩ := C78_round_trip_partial fuel order horder stamps B g n hW
    [(s1, fs, .buffer m d1 res), (s2, fs, .buffer m d2 res)] (by
      intro c hc
      simp only [List.mem_cons, List.not_mem_nil, or_false] at hc
      rcases hc with rfl | rfl <;> exact hm)
    (by
      rw [hitems]
      intro i hi
      simp only [List.mem_cons, List.not_mem_nil, or_false] at hi
      rcases hi with rfl | rfl <;> exact hx)
    p hp xml (by rw [hitems, honce]; exact hfit) hf {} fs
  have ho1 : o1.open_ = true ∧ o1.zip.isSome := by
    unfold Fix.openWrite at h1
    cases h1
    exact ⟨rfl, rfl⟩
  obtain ⟨o2, a1, a2, a3, a4⟩ := perform_buffer ho1.1 ho1.2 h3
  obtain ⟨o3', b1, b2, -⟩ := perform_buffer a3 a4 a2
  rw [gperform, Except.ok.injEq] at b2
  subst b2
  refine ⟨o1, fs1, o2, o3', h1, a1, b1, ?_⟩
  intro disk hdir
  obtain ⟨o4, disk', c1, -, -, c4⟩ := h4 disk hdir
  refine ⟨o4, disk', c1, ?_⟩
  intro stale garbage r0 later hl
  obtain ⟨⟨r, fs', r1, r2⟩, -⟩ := c4 stale garbage r0 later hl
  rw [hitems, honce] at r2
  exact ⟨r, fs', r1, r2.count, (r2.files 0 (by simp)).2⟩

/-- C78 is violated: a resource of the fixture (not of its models or wheels) that is called as the description is read back in its
place; the description that `Close` writes is not in the file. -/
theorem C78_description_violated {codec : Codec} (fuel : Nat)
    (order : List (List Char × List Byte) → List (List Char × List Byte)) (horder : ∀ l, (order l).Perm l) (stamps : Nat → Stamp)
    (B : List (List Char)) (g n : List Char) (hW : ∀ q ∈ B ++ [g, n], Plain q) (s : Stamp) (d : List Byte)
    (p : Place) (hp : p.Usual) (xml : List Byte) (hfit : Fits codec false [(gdtfDesc, d)]) (hf : 3 ≤ fuel) (fs : Fs) :
    ∃ o1 fs1 o2, Fix.openWrite fs {} p.text = (.noError, o1, fs1) ∧ o1.addBuffer codec fuel s gdtfDesc d .fixture = .ok (.noError, o2) ∧
      ∀ disk : Fs, disk.dir (folderText p.folders) = true → ∃ o3 disk',
        o2.close codec fuel order stamps disk xml = .ok (.noError, o3, disk') ∧
        ∀ (stale : Byte) (garbage : FileInfo) (r0 : Fix) (later : Fs), later.dir (folderText B) = true →
          ∃ r fs', r0.fromBuffer codec fuel stale garbage ([] :: (B ++ [g, n])) later o3.buffer = .ok (.noError, r, fs') ∧
            r.desc = some d := by
  have hun : unused [] (package (items [(s, fs, .buffer gdtfDesc d .fixture)]) ++ [(gdtfDesc, xml)]) = [(gdtfDesc, d)] := by
    show unused [] [(gdtfDesc, d), (gdtfDesc, xml)] = _
    simp [unused]
  obtain ⟨o1, fs1, o2', h1, -, h3, h4⟩ := written (codec := codec) fuel order horder stamps [(s, fs, .buffer gdtfDesc d .fixture)] (by
      intro c hc
      rw [List.mem_singleton.1 hc]
      exact (by decide +kernel : Plain gdtfDesc)) p hp xml (by rw [hun]; exact hfit) hf {} fs
  have ho1 : o1.open_ = true ∧ o1.zip.isSome := by
    unfold Fix.openWrite at h1
    cases h1
    exact ⟨rfl, rfl⟩
  obtain ⟨o2, a1, a2, -⟩ := perform_buffer ho1.1 ho1.2 h3
  rw [gperform, Except.ok.injEq] at a2
  subst a2
  refine ⟨o1, fs1, o2, h1, a1, ?_⟩
  intro disk hdir
  obtain ⟨o3, disk', c1, -, -, c4, -⟩ := h4 disk hdir
  rw [hun] at c4
  refine ⟨o3, disk', c1, ?_⟩
  intro stale garbage r0 later hl
  obtain ⟨r, fs', r1, r2, -⟩ := C78_read_partial B g n hW [] [] d (by simp) (by simp) (by simp) c4 stale garbage r0 later hl
  exact ⟨r, fs', r1, r2.desc⟩

/-- C78 is violated: opening an existing file for writing deletes it at once. If the program ends before `Close`, the old fixture is
lost and there is no new one. -/
theorem C78_open_deletes_violated (fs : Fs) (o : Fix) (p : Place) (hp : p.Usual) (data : List Byte) (h : fs.file p.text = some data)
    (hl : ∀ i < o.count, o.at_ i ≠ p.text) :
    (o.openWrite fs p.text).1 = .noError ∧ (o.openWrite fs p.text).2.2.file p.text = none := by
  refine ⟨rfl, ?_⟩
  unfold Fix.openWrite
  simp only
  rw [drop_file _ _ _ hl, setText_plain hp]
  have hc : fs.content (some ⟨[] :: p.folders, p.name⟩) = some data := by
    unfold Fs.content
    rw [Option.bind_some, fullPath_plain _ _ hp.1 hp.2]
    exact h
  simp only [hc, Option.isSome_some, if_true]
  rw [remove_plain _ _ _ hp.1 hp.2]
  exact put_same ..

/-- C78 is violated: after `Close`, giving more resources and closing again report success, but neither the resources nor a changed
description get into the file or the bytes. -/
theorem C78_closed_violated {codec : Codec} (fuel : Nat)
    (order : List (List Char × List Byte) → List (List Char × List Byte)) (horder : ∀ l, (order l).Perm l) (stamps stamps' : Nat → Stamp)
    (calls : List (Stamp × Fs × GCall)) (hc : ∀ c ∈ calls, c.2.2.Usual) (p : Place) (hp : p.Usual) (xml xml' : List Byte)
    (hfit : Fits codec false (unused [] (package (items calls) ++ [(gdtfDesc, xml)]))) (hf : calls.length + 2 ≤ fuel)
    (o : Fix) (fs disk : Fs) (hdir : disk.dir (folderText p.folders) = true) (s : Stamp) (m : List Char) (d : List Byte) (res : Res) :
    ∃ o1 fs1 o2 o3 disk1 o4 o5 disk2, o.openWrite fs p.text = (.noError, o1, fs1) ∧ gperform codec fuel o1 calls = .ok o2 ∧
      o2.close codec fuel order stamps disk xml = .ok (.noError, o3, disk1) ∧
      o3.addBuffer codec fuel s m d res = .ok (.noError, o4) ∧
      o4.close codec fuel order stamps' disk1 xml' = .ok (.noError, o5, disk2) ∧
      o5.buffer = o3.buffer ∧ disk2.file = disk1.file := by
  obtain ⟨o1, fs1, o2, h1, -, h3, h4⟩ := written (codec := codec) fuel order horder stamps calls hc p hp xml hfit hf o fs
  obtain ⟨o3, disk1, c1, c2, c3, c4, ⟨c5, c6, z, c7, c8, c9⟩, c10⟩ := h4 disk hdir
  have hadd : ∀ as, addEntries codec fuel z as = .ok z := by
    intro as
    induction as with
    | nil => rfl
    | cons a t ih =>
      rw [addEntries]
      unfold Zip.addFile
      rw [if_pos c8]
      exact ih
  have hone : ∀ k d', addOne codec fuel z s k d' = .ok z := by
    intro k d'
    unfold addOne Zip.addFile
    rw [if_pos c8]
    rfl
  have hdir1 : disk1.dir (folderText p.folders) = true := by
    unfold Fix.close at c1
    split at c1
    · cases c1
    · cases hz : o2.zip with
      | none => rw [hz] at c1; cases c1
      | some z2 =>
        rw [hz] at c1
        simp only [bind, Except.bind] at c1
        cases ha : addEntries codec fuel z2 (stampAll stamps 0 (o2.exports order xml)) with
        | error x => rw [ha] at c1; exact absurd c1 (by simp)
        | ok v =>
          rw [ha] at c1
          simp only [Except.ok.injEq, Prod.mk.injEq] at c1
          rw [← c1.2.2]
          unfold saveZip
          split
          · exact hdir
          · rw [write_dir]; exact hdir
  refine ⟨o1, fs1, o2, o3, disk1, { o3 with zip := some z, added := o3.added ++ [(entryText res m, d)] },
    { o3 with zip := some { z with write := false }, added := o3.added ++ [(entryText res m, d)], buffer := z.data },
    saveZip disk1 o3.path z, h1, h3, c1, ?_, ?_, ?_, ?_⟩
  · unfold Fix.addBuffer
    rw [if_neg (by simp [c5]), c7]
    simp only
    rw [hone]
    rfl
  · unfold Fix.close
    rw [if_neg (by simp [c5])]
    simp only
    rw [hadd]
    rfl
  · exact c9
  · unfold saveZip
    split
    · rfl
    · rw [c10, write_plain _ _ _ hp.1 hp.2 hdir1, c9]
      funext q
      by_cases hq : q = p.text
      · rw [hq, c2]; exact put_same ..
      · exact put_other _ _ _ _ hq

/-- C78 is violated: all fixtures of the program use one working folder. Reading a second fixture that has a resource with the same name
puts the content of that one into the file that the first one lists. -/
theorem C78_shared_folder_violated {codec : Codec} {fuel : Nat} {data1 data2 : List Byte} (B : List (List Char)) (g n : List Char)
    (hW : ∀ q ∈ B ++ [g, n], Plain q) (i : Item) (hi : Plain i.name) (hid : i.entry ≠ gdtfDesc) (l : List Item) (xml1 xml2 : List Byte)
    (hn : ∀ j ∈ l, Plain j.name) (hd : ∀ j ∈ l, j.entry ≠ gdtfDesc) (hp : l.Pairwise (fun a b => a.entry ≠ b.entry))
    (d : List Byte) (hij : { i with data := d } ∈ l)
    (h1 : Holds codec fuel data1 [(i.entry, i.data), (gdtfDesc, xml1)])
    (h2 : Holds codec fuel data2 (package l ++ [(gdtfDesc, xml2)]))
    (stale : Byte) (garbage : FileInfo) (fs : Fs) (hB : fs.dir (folderText B) = true) :
    ∃ r1 fs1 r2 fs2, Fix.fromBuffer codec fuel stale garbage ([] :: (B ++ [g, n])) fs {} data1 = .ok (.noError, r1, fs1) ∧
      r1.count = 1 ∧ fs1.file (r1.at_ 0) = some i.data ∧
      Fix.fromBuffer codec fuel stale garbage ([] :: (B ++ [g, n])) fs1 {} data2 = .ok (.noError, r2, fs2) ∧
      fs2.file (r1.at_ 0) = some d := by
  obtain ⟨r1, fs1, a1, a2, -, -, -, -, a3, a4, -⟩ := C78_read_partial B g n hW [i] [] xml1 (by simpa using hi) (by simpa using hid) (by simp) h1
    stale garbage {} fs hB
  obtain ⟨r2, fs2, b1, b2, -, -, -, -, -, -, -⟩ := C78_read_partial B g n hW l [] xml2 (by simpa using hn) (by simpa using hd) (by simpa using hp) h2
    stale garbage {} fs1 a4
  have hat := a2.files 0 (by simp)
  refine ⟨r1, fs1, r2, fs2, a1, a2.count, hat.2, b1, ?_⟩
  rw [hat.1]
  obtain ⟨k, hk, he⟩ := List.getElem_of_mem (List.mem_append_left [] hij)
  have hb := b2.files k hk
  rw [hb.1, he] at hb
  exact hb.2

/-- C78 is violated: the working folder is not emptied (GDTFManager.cpp:7853 says it is).  After reading a fixture with other resources
the file that was read before is still there, with its content; only the object that has read it deletes it. -/
theorem C78_not_empty_violated {codec : Codec} {fuel : Nat} {data1 data2 : List Byte} (B : List (List Char)) (g n : List Char)
    (hW : ∀ q ∈ B ++ [g, n], Plain q) (i : Item) (hi : Plain i.name) (hid : i.entry ≠ gdtfDesc) (l : List Item) (xml1 xml2 : List Byte)
    (hn : ∀ j ∈ l, Plain j.name) (hd : ∀ j ∈ l, j.entry ≠ gdtfDesc) (hp : l.Pairwise (fun a b => a.entry ≠ b.entry))
    (hij : ∀ j ∈ l, i.entry ≠ j.entry)
    (h1 : Holds codec fuel data1 [(i.entry, i.data), (gdtfDesc, xml1)])
    (h2 : Holds codec fuel data2 (package l ++ [(gdtfDesc, xml2)]))
    (stale : Byte) (garbage : FileInfo) (fs : Fs) (hB : fs.dir (folderText B) = true) :
    ∃ r1 fs1 r2 fs2, Fix.fromBuffer codec fuel stale garbage ([] :: (B ++ [g, n])) fs {} data1 = .ok (.noError, r1, fs1) ∧
      r1.count = 1 ∧ fs1.file (r1.at_ 0) = some i.data ∧
      Fix.fromBuffer codec fuel stale garbage ([] :: (B ++ [g, n])) fs1 {} data2 = .ok (.noError, r2, fs2) ∧
      fs2.file (r1.at_ 0) = some i.data := by
  obtain ⟨r1, fs1, a1, a2, -, -, -, -, a3, a4, -⟩ := C78_read_partial B g n hW [i] [] xml1 (by simpa using hi) (by simpa using hid) (by simp) h1
    stale garbage {} fs hB
  obtain ⟨r2, fs2, b1, -, -, -, -, -, -, -, b2⟩ := C78_read_partial B g n hW l [] xml2 (by simpa using hn) (by simpa using hd) (by simpa using hp) h2
    stale garbage {} fs1 a4
  have hat := a2.files 0 (by simp)
  refine ⟨r1, fs1, r2, fs2, a1, a2.count, hat.2, b1, ?_⟩
  rw [b2 (r1.at_ 0)]
  · exact hat.2
  · intro j hj
    rw [hat.1]
    intro he
    rw [List.append_nil] at hj
    exact hij j hj (place_inj _ i j hi (hn j hj) he)

/-- C78 is violated: when a package has been read by two objects and one of them is destroyed (or reads something else), the files that
the other one lists are gone. -/
theorem C78_destroyed_violated {W : List (List Char)} {l : List Item} {xml1 xml2 : List Byte} {a b r1 r2 : Fix} {f1 f2 fs1 fs2 : Fs}
    (h1 : Restored W l xml1 a f1 r1 fs1) (h2 : Restored W l xml2 b f2 r2 fs2) (i : Nat) (hi : i < l.length) :
    fs2.file (r2.at_ i) = some l[i].data ∧ (r1.dropFixture fs2).file (r2.at_ i) = none := by
  refine ⟨(h2.files i hi).2, ?_⟩
  have h : r2.at_ i = r1.at_ i := by rw [(h2.files i hi).1, (h1.files i hi).1]
  rw [h]
  refine drop_gone _ _ _ (by rw [h1.count]; exact hi) ?_
  rw [(h1.files i hi).1]
  simp [Item.place, folderText]

/-! ## Violations of C79 -/

/-- C79 is violated: a resource whose name does not end as that of a mesh (a wheel image, a thumbnail) is lost when a fixture that has
been read is written again. -/
theorem C79_image_violated {codec : Codec} (fuel : Nat)
    (order : List (List Char × List Byte) → List (List Char × List Byte)) (horder : ∀ l, (order l).Perm l) (stamps : Nat → Stamp)
    (B : List (List Char)) (g n : List Char) (hW : ∀ q ∈ B ++ [g, n], Plain q) (data : List Byte) (i : Item) (hi : Plain i.name)
    (hid : i.entry ≠ gdtfDesc) (h1 : ¬ "glb".toList <:+ i.name) (h2 : ¬ "svg".toList <:+ i.name) (h3 : ¬ "3ds".toList <:+ i.name)
    (xml xml' : List Byte) (hh : Holds codec fuel data [(i.entry, i.data), (gdtfDesc, xml)]) (hfit : Fits codec false [(gdtfDesc, xml')])
    (hf : 3 ≤ fuel) (stale : Byte) (garbage : FileInfo) (r0 : Fix) (later : Fs) (hl : later.dir (folderText B) = true) :
    ∃ r fs r', r0.fromBuffer codec fuel stale garbage ([] :: (B ++ [g, n])) later data = .ok (.noError, r, fs) ∧ r.count = 1 ∧
      r.refresh codec fuel order stamps xml' = .ok (.noError, r') ∧
      ∃ r2 fs2, r0.fromBuffer codec fuel stale garbage ([] :: (B ++ [g, n])) later r'.buffer = .ok (.noError, r2, fs2) ∧ r2.count = 0 := by
  have hk : ([i] ++ []).filterMap keep = [] := by
    have : keep i = none := by unfold keep; rw [if_neg h1, if_neg h2, if_neg h3]
    simp [this]
  have hread := C78_read_partial B g n hW [i] [] xml (by simpa using hi) (by simpa using hid) (by simp) hh stale garbage r0 later hl
  obtain ⟨r, fs, r', L, a1, a2, a3, a4⟩ := C79_edit_partial fuel order horder stamps B g n hW data [i] [] xml xml' (by simpa using hi)
    (by simpa using hid) (by simp) hh (by
      intro L hL
      rw [hk] at hL
      rw [List.perm_nil.1 hL]
      exact hfit) hf stale garbage r0 later hl
  rw [hk] at a3
  rw [List.perm_nil.1 a3] at a4
  obtain ⟨r2, fs2, b1, b2⟩ := a4 stale garbage r0 later hl
  obtain ⟨rr, ff, c1, c2, -⟩ := hread
  rw [a1] at c1
  cases c1
  exact ⟨_, _, r', a1, c2.count, a2, r2, fs2, b1, b2.count⟩

/-- C79 is violated: a main mesh and the coarse one have the same name, as the GDTF standard demands. After writing the fixture again
only one is left: the coarse mesh, in the place of the main one. -/
theorem C79_low_violated {codec : Codec} (fuel : Nat)
    (order : List (List Char × List Byte) → List (List Char × List Byte)) (horder : ∀ l, (order l).Perm l) (stamps : Nat → Stamp)
    (B : List (List Char)) (g n : List Char) (hW : ∀ q ∈ B ++ [g, n], Plain q) (data : List Byte) (m : List Char) (hm : Plain m)
    (hg : "glb".toList <:+ m) (main low : List Byte) (xml xml' : List Byte)
    (hh : Holds codec fuel data (package [⟨.modelGLTF, m, main⟩, ⟨.modelGLTFLow, m, low⟩] ++ [(gdtfDesc, xml)]))
    (hfit : Fits codec false ((gdtfDesc, xml') :: package [⟨.modelGLTF, m, low⟩]))
    (hf : 4 ≤ fuel) (stale : Byte) (garbage : FileInfo) (r0 : Fix) (later : Fs) (hl : later.dir (folderText B) = true) :
    ∃ r fs r', r0.fromBuffer codec fuel stale garbage ([] :: (B ++ [g, n])) later data = .ok (.noError, r, fs) ∧ r.count = 2 ∧
      r.refresh codec fuel order stamps xml' = .ok (.noError, r') ∧
      ∃ r2 fs2, r0.fromBuffer codec fuel stale garbage ([] :: (B ++ [g, n])) later r'.buffer = .ok (.noError, r2, fs2) ∧ r2.count = 1 ∧
        r2.at_ 0 = Item.place (B ++ [g, n]) ⟨.modelGLTF, m, main⟩ ∧ fs2.file (r2.at_ 0) = some low := by
  have hent : Item.entry ⟨.modelGLTF, m, main⟩ ≠ Item.entry ⟨.modelGLTFLow, m, low⟩ := by
    intro h
    have h := List.append_cancel_right h
    exact absurd h (by decide +kernel : (location .modelGLTF).flatMap (· ++ ['/']) ≠ (location .modelGLTFLow).flatMap (· ++ ['/']))
  have hlow : Item.entry ⟨.modelGLTFLow, m, low⟩ ≠ gdtfDesc := by
    intro h
    have h := congrArg List.head? h
    have e1 : gdtfDesc.head? = some 'd' := rfl
    rw [e1] at h
    exact absurd h (by simp [Item.entry, location])
  obtain ⟨r, fs, a1, a2, a3, a4, a5, -⟩ := C78_read_partial B g n hW [⟨.modelGLTF, m, main⟩, ⟨.modelGLTFLow, m, low⟩] [] xml
    (by
      intro i hi
      simp only [List.append_nil, List.mem_cons, List.not_mem_nil, or_false] at hi
      rcases hi with rfl | rfl <;> exact hm)
    (by
      intro i hi
      simp only [List.append_nil, List.mem_cons, List.not_mem_nil, or_false] at hi
      rcases hi with rfl | rfl
      · exact mesh_name_no_desc (Or.inl rfl)
      · exact hlow)
    (by simpa using hent) hh stale garbage r0 later hl
  have hmesh : r.meshes = [(⟨.modelGLTFLow, m, low⟩ : Item)].map (fun i => (i.name, i.data)) := by
    rw [a5]
    have hself : eqNoCase m m = true := by simp [eqNoCase]
    simp [setMesh, hself]
  have hkeep : [(⟨.modelGLTFLow, m, low⟩ : Item)].filterMap keep = [⟨.modelGLTF, m, low⟩] := by
    rw [List.filterMap_cons]
    unfold keep
    rw [if_pos hg]
    rfl
  have hfin : Item.entry ⟨.modelGLTF, m, low⟩ ≠ gdtfDesc := mesh_name_no_desc (Or.inl rfl)
  have hun : unused [] ((gdtfDesc, xml') :: (package [⟨.modelGLTF, m, low⟩] ++ package [])) =
      (gdtfDesc, xml') :: package [⟨.modelGLTF, m, low⟩] := by
    refine unused_self _ _ ?_ (by simp)
    simpa [package] using fun h => hfin h.symm
  obtain ⟨r', L, b1, b2, b3, -⟩ := refreshed fuel order horder stamps [⟨.modelGLTFLow, m, low⟩] [] (by simpa using hm) (by simp) xml' r a3 hmesh
    a4 (by
      intro L hL
      rw [hkeep] at hL
      rw [List.perm_singleton.1 hL, hun]
      exact hfit) (by simpa using Nat.le_of_succ_le hf)
  rw [hkeep] at b1
  rw [List.perm_singleton.1 b1, hun] at b3
  obtain ⟨r2, fs2, c1, c2, -⟩ := C78_read_partial B g n hW [] [⟨.modelGLTF, m, low⟩] xml' (by simpa using hm) (by simpa using hfin) (by simp) b3
    stale garbage r0 later hl
  exact ⟨r, fs, r', a1, a2.count, b2, r2, fs2, c1, c2.count, (c2.files 0 (by simp)).1, (c2.files 0 (by simp)).2⟩

/-- C79 is violated: resources that have been given as files are not in the bytes of `RefreshBuffer`. -/
theorem C79_file_violated {codec : Codec} (fuel : Nat)
    (order : List (List Char × List Byte) → List (List Char × List Byte)) (horder : ∀ l, (order l).Perm l) (stamps : Nat → Stamp)
    (B : List (List Char)) (g n : List Char) (hW : ∀ q ∈ B ++ [g, n], Plain q) (s : Stamp) (disk : Fs) (p : Place) (hp : p.Usual)
    (d : List Byte) (hd : disk.file p.text = some d) (res : Res) (hx : Item.entry ⟨res, p.name, d⟩ ≠ gdtfDesc) (text : List Char)
    (xml : List Byte) (hfit0 : Fits codec false (package [⟨res, p.name, d⟩])) (hfit : Fits codec false [(gdtfDesc, xml)]) (hf : 3 ≤ fuel)
    (o : Fix) (fs : Fs) :
    ∃ o1 fs1 o2 o3, o.openWrite fs text = (.noError, o1, fs1) ∧ o1.addFile codec fuel s disk p.text res [] = .ok (.noError, o2) ∧
      o2.refresh codec fuel order stamps xml = .ok (.noError, o3) ∧
      ∀ (stale : Byte) (garbage : FileInfo) (r0 : Fix) (later : Fs), later.dir (folderText B) = true →
        ∃ r fs', r0.fromBuffer codec fuel stale garbage ([] :: (B ++ [g, n])) later o3.buffer = .ok (.noError, r, fs') ∧ r.count = 0 := by
  have hitems : items [(s, disk, .file p res [])] = [⟨res, p.name, d⟩] := by
    simp [items, GCall.item, hd]
  obtain ⟨o1, fs1, o2, o3, h1, h2, h3, h4⟩ := C79_buffers_partial (codec := codec) fuel order horder stamps B g n hW [(s, disk, .file p res [])]
    (by
      intro c hc
      rw [List.mem_singleton.1 hc]
      exact ⟨hp, Or.inl rfl⟩)
    (by rw [hitems]; simpa using hx) text xml (by rw [hitems]; exact hfit0) hfit hf o fs
  have ho1 : o1.open_ = true ∧ o1.zip.isSome := by
    unfold Fix.openWrite at h1
    cases h1
    exact ⟨rfl, rfl⟩
  rw [gperform] at h2
  cases ha : o1.addFile codec fuel s disk p.text res [] with
  | error x => rw [ha] at h2; exact absurd h2 (by simp [bind, Except.bind])
  | ok v =>
    obtain ⟨e, o'⟩ := v
    rw [ha] at h2
    have he := (((C78_calls (codec := codec) (fuel := fuel) s disk o1).2 p res [] e o' hp ha).1).2 ⟨ho1.1, ho1.2, by rw [hd]; rfl⟩
    subst he
    have h2 : gperform codec fuel o' [] = .ok o2 := h2
    rw [gperform, Except.ok.injEq] at h2
    subst h2
    refine ⟨o1, fs1, o', o3, h1, ha, h3, ?_⟩
    intro stale garbage r0 later hl
    obtain ⟨r, fs', r1, r2⟩ := h4 stale garbage r0 later hl
    exact ⟨r, fs', r1, r2.count⟩

/-- C79 is violated: nothing can be added to a fixture that a new object has read, neither a buffer nor a file; opening it for writing
would discard it. -/
theorem C79_add_violated {codec : Codec} {fuel : Nat} {stale : Byte} {garbage : FileInfo} {W : List (List Char)} {fs : Fs} {data : List Byte}
    {e : Err} {r : Fix} {fs1 : Fs} (h : Fix.fromBuffer codec fuel stale garbage W fs {} data = .ok (e, r, fs1)) (s : Stamp) (disk : Fs) :
    (∀ n d res, r.addBuffer codec fuel s n d res = .ok (.failed, r)) ∧
    (∀ text res n, r.addFile codec fuel s disk text res n = .ok (.failed, r)) ∧
    (∀ text, (r.openWrite disk text).2.1.desc = none ∧ (r.openWrite disk text).2.1.count = 0) := by
  have hz : r.zip = none ∧ r.open_ = true := by
    unfold Fix.fromBuffer at h
    cases hl : gdtfLoop codec fuel stale garbage W data fuel [] ⟨prepare (Fix.dropFixture fs {}) W, [], [], none⟩ with
    | error x => rw [hl] at h; exact absurd h (by simp [bind, Except.bind])
    | ok v => rw [hl] at h; cases h; exact ⟨rfl, rfl⟩
  refine ⟨?_, ?_, fun _ => ⟨rfl, rfl⟩⟩
  · intro n d res
    unfold Fix.addBuffer
    rw [if_neg (by simp [hz.2]), hz.1]
  · intro text res n
    unfold Fix.addFile
    rw [if_neg (by simp [hz.2]), hz.1]

/-! ## The hypotheses can be met -/

/-- Every package within the limits is the content of some archive, so that `Holds` can be met. -/
theorem holds_exists {codec : Codec} (fuel : Nat) (es : List (List Char × List Byte)) (hb : ∀ e ∈ es, '\\' ∉ e.1)
    (hd : es.Pairwise (fun a b => a.1 ≠ b.1)) (h : Fits codec false es) (hf : es.length + 1 ≤ fuel) : ∃ data, Holds codec fuel data es := by
  have hu := unused_self es [] hd (by simp)
  obtain ⟨z, -, hh⟩ := adds_hold fuel (stampAll (fun _ => ⟨0, 0, 0⟩) 0 es) es (stampAll_pairs ..) hb (by rw [hu]; exact h) hf
  rw [hu] at hh
  exact ⟨z.data, hh⟩

def sampleStamp : Stamp := ⟨0, 0, 0⟩

/-- A mesh, a gobo from a file, the coarse mesh with the same name, and the gobo once more. -/
def sampleGCalls : List (Stamp × Fs × GCall) :=
  [(sampleStamp, sampleFs, .buffer "spot.glb".toList [1#8, 2#8] .modelGLTF),
   (sampleStamp, sampleFs, .file samplePlace .imageWheel "gobo.png".toList),
   (sampleStamp, sampleFs, .buffer "spot.glb".toList [3#8] .modelGLTFLow),
   (sampleStamp, sampleFs, .file ⟨["in".toList, "old".toList], "logo.png".toList⟩ .imageWheel "gobo.png".toList)]

def sampleItems : List Item :=
  [⟨.modelGLTF, "spot.glb".toList, [1#8, 2#8]⟩, ⟨.imageWheel, "gobo.png".toList, [1#8, 2#8]⟩, ⟨.modelGLTFLow, "spot.glb".toList, [3#8]⟩]

theorem sample_once : once [] (items sampleGCalls) = sampleItems := by decide +kernel

theorem sample_gusual : ∀ c ∈ sampleGCalls, c.2.2.Usual := by
  intro c hc
  simp only [sampleGCalls, List.mem_cons, List.not_mem_nil, or_false] at hc
  rcases hc with rfl | rfl | rfl | rfl
  · show Plain "spot.glb".toList; decide +kernel
  · show Place.Usual samplePlace ∧ _
    exact ⟨⟨by decide +kernel, by decide +kernel⟩, Or.inr (by decide +kernel)⟩
  · show Plain "spot.glb".toList; decide +kernel
  · exact ⟨⟨by decide +kernel, by decide +kernel⟩, Or.inr (by decide +kernel)⟩

/-- Where things are in the archive and where they are unpacked to. -/
example : sampleItems.map Item.entry = ["models/gltf/spot.glb".toList, "wheels/gobo.png".toList, "models/gltf_low/spot.glb".toList] ∧
    sampleItems.map (Item.place ["tmp".toList, "GDTFs".toList, "GdtfGroup".toList]) =
      ["/tmp/GDTFs/GdtfGroup/modelsgltf/spot.glb".toList, "/tmp/GDTFs/GdtfGroup/wheels/gobo.png".toList,
       "/tmp/GDTFs/GdtfGroup/modelsgltf_low/spot.glb".toList] := by decide +kernel

theorem sample_fits (xml : List Byte) (hx : xml.length < 1000000) : Fits sampleCodec false (package sampleItems ++ [(gdtfDesc, xml)]) := by
  have e : package sampleItems = [("models/gltf/spot.glb".toList, [1#8, 2#8]), ("wheels/gobo.png".toList, [1#8, 2#8]),
    ("models/gltf_low/spot.glb".toList, [3#8])] := by decide +kernel
  rw [e]
  refine fits_small _ _ _ (by simp) ?_ ?_
  · intro e he
    have : e.1 ∈ ["models/gltf/spot.glb".toList, "wheels/gobo.png".toList, "models/gltf_low/spot.glb".toList, gdtfDesc] := by
      simp only [List.cons_append, List.nil_append, List.mem_cons, List.not_mem_nil, or_false] at he ⊢
      rcases he with rfl | rfl | rfl | rfl <;> simp
    generalize e.1 = n at this
    revert n
    decide +kernel
  · have e1 : (enc gdtfDesc).length = 15 := by decide +kernel
    have e2 : (enc "models/gltf/spot.glb".toList).length = 20 := by decide +kernel
    have e3 : (enc "wheels/gobo.png".toList).length = 15 := by decide +kernel
    have e4 : (enc "models/gltf_low/spot.glb".toList).length = 24 := by decide +kernel
    simp only [List.cons_append, List.nil_append, List.map_cons, List.map_nil, List.sum_cons, List.sum_nil, e1, e2, e3, e4, packed, List.length_cons,
      List.length_nil]
    simp
    omega

/-- C78: the hypotheses are met by the sample, with any description of usual size. -/
example (stamps : Nat → Stamp) (xml : List Byte) (hx : xml.length < 1000000) (o : Fix) (fs : Fs) :=
  C78_round_trip_partial (codec := sampleCodec) 8 id (fun _ => List.Perm.refl _) stamps ["tmp".toList] "GDTFs".toList "GdtfGroup".toList
    (by decide +kernel) sampleGCalls sample_gusual (by decide +kernel) ⟨["out".toList], "spot.gdtf".toList⟩ ⟨by decide +kernel, by decide +kernel⟩
    xml (by rw [sample_once]; exact sample_fits xml hx) (by decide) o fs

/-- C78: the mesh of the model `spot` is the coarse one, which is later in the package. -/
example : (sampleItems.reverse.find? (fun i => eqNoCase i.name ("spot".toList ++ ".glb".toList))).map (·.data) = some [3#8] := by decide +kernel

/-- C78, C79: there is an archive with the resources of the sample, and `sampleFs` has the folder for the working folder. -/
example (xml : List Byte) (hx : xml.length < 1000000) : (∃ data, Holds sampleCodec 8 data (package sampleItems ++ [(gdtfDesc, xml)])) ∧
    sampleFs.dir (folderText ["tmp".toList]) = true := by
  refine ⟨holds_exists 8 _ ?_ ?_ (sample_fits xml hx) (by simp [package, sampleItems]), by decide +kernel⟩
  · intro e he
    rcases List.mem_append.1 he with he | he
    · exact (by decide +kernel : ∀ e ∈ package sampleItems, '\\' ∉ e.1) e he
    · rw [List.mem_singleton.1 he]
      exact (by decide : '\\' ∉ gdtfDesc)
  · rw [List.pairwise_append]
    refine ⟨by decide +kernel, by simp, ?_⟩
    intro a ha b hb
    rw [List.mem_singleton.1 hb]
    exact (by decide +kernel : ∀ e ∈ package sampleItems, e.1 ≠ gdtfDesc) a ha

/-- C79: which resources are kept. -/
example : sampleItems.filterMap keep = [⟨.modelGLTF, "spot.glb".toList, [1#8, 2#8]⟩, ⟨.modelGLTF, "spot.glb".toList, [3#8]⟩] ∧
    MainMesh ⟨.modelGLTF, "spot.glb".toList, [1#8, 2#8]⟩ ∧ ¬ "glb".toList <:+ "gobo.png".toList ∧ ¬ "svg".toList <:+ "gobo.png".toList ∧
    ¬ "3ds".toList <:+ "gobo.png".toList ∧ "glb".toList <:+ "spot.glb".toList := by
  refine ⟨by decide +kernel, Or.inl ⟨rfl, by decide +kernel⟩, ?_⟩
  decide +kernel

/-- C79: a fixture with a mesh and a symbol of different names is written again, whatever the order of the map. -/
example (stamps : Nat → Stamp) (data : List Byte) (xml xml' : List Byte) (hx : xml'.length < 1000000)
    (hh : Holds sampleCodec 8 data (package [⟨.modelGLTF, "a.glb".toList, [1#8]⟩, ⟨.modelSVG, "b.svg".toList, [2#8]⟩] ++ [(gdtfDesc, xml)]))
    (stale : Byte) (garbage : FileInfo) (r0 : Fix) :=
  C79_edit_partial (codec := sampleCodec) 8 List.reverse (fun _ => List.reverse_perm _) stamps ["tmp".toList] "GDTFs".toList "GdtfGroup".toList
    (by decide +kernel) data [⟨.modelGLTF, "a.glb".toList, [1#8]⟩, ⟨.modelSVG, "b.svg".toList, [2#8]⟩] [] xml xml' (by decide +kernel)
    (by decide +kernel) (by decide +kernel) hh
    (by
      intro L hL
      have hlen := hL.length_eq
      have e : ([⟨.modelGLTF, "a.glb".toList, [1#8]⟩, ⟨.modelSVG, "b.svg".toList, [2#8]⟩] ++ [] : List Item).filterMap keep =
        [⟨.modelGLTF, "a.glb".toList, [1#8]⟩, ⟨.modelSVG, "b.svg".toList, [2#8]⟩] := by decide +kernel
      rw [e] at hL hlen
      have hmap := hL.map (fun i : Item => 76 + 2 * (enc i.entry).length + packed sampleCodec false i.data)
      have e1 : (enc gdtfDesc).length = 15 := by decide +kernel
      have e2 : ([⟨.modelGLTF, "a.glb".toList, [1#8]⟩, ⟨.modelSVG, "b.svg".toList, [2#8]⟩] : List Item).map
        (fun i => 76 + 2 * (enc i.entry).length + packed sampleCodec false i.data) = [111, 109] := by decide +kernel
      rw [e2] at hmap
      refine fits_small _ _ _ (by simp [package, hlen]) ?_ ?_
      · intro x hx
        rcases List.mem_cons.1 hx with rfl | hx
        · exact (by decide +kernel : gdtfDesc ≠ [] ∧ (enc gdtfDesc).length ≤ 1024 ∧ gdtfDesc.head? ≠ some (Char.ofNat 0))
        · obtain ⟨i, hi, rfl⟩ := List.mem_map.1 hx
          have h2 := hL.mem_iff.1 hi
          simp only [List.mem_cons, List.not_mem_nil, or_false] at h2
          rcases h2 with rfl | rfl
          · exact (by decide +kernel : Item.entry ⟨.modelGLTF, "a.glb".toList, [1#8]⟩ ≠ [] ∧
              (enc (Item.entry ⟨.modelGLTF, "a.glb".toList, [1#8]⟩)).length ≤ 1024 ∧
              (Item.entry ⟨.modelGLTF, "a.glb".toList, [1#8]⟩).head? ≠ some (Char.ofNat 0))
          · exact (by decide +kernel : Item.entry ⟨.modelSVG, "b.svg".toList, [2#8]⟩ ≠ [] ∧
              (enc (Item.entry ⟨.modelSVG, "b.svg".toList, [2#8]⟩)).length ≤ 1024 ∧
              (Item.entry ⟨.modelSVG, "b.svg".toList, [2#8]⟩).head? ≠ some (Char.ofNat 0))
      · have hs := hmap.sum_nat
        simp only [package, List.map_cons, List.map_map, List.sum_cons]
        have : (L.map ((fun e : List Char × List Byte => 76 + 2 * (enc e.1).length + packed sampleCodec false e.2) ∘ fun i => (i.entry, i.data))).sum =
            220 := hs
        rw [this, e1]
        simp [packed]
        omega)
    (by decide) stale garbage r0 sampleFs (by decide +kernel)

end Verif.Pack
