import Verif.Pack.Lemmas

/-!
# C77: what is given to an MVR file comes back when it is read
-/

namespace Verif.Pack

open Verif.Zip Verif.Zip.Spec Verif.Path Verif.Path.Spec Verif.Str Spec

theorem plain_no_backslash {n : List Char} (h : Plain n) : '\\' ∉ n := fun hc => (h.2.2 _ hc).2.1 rfl

theorem mem_given {fs : Fs} {calls : List Call} {gdtfs : List (List Char)} (hc : ∀ c ∈ calls, c.Usual) (hg : ∀ n ∈ gdtfs, Plain n)
    {e : List Char × List Byte} (he : e ∈ given fs calls gdtfs) : Plain e.1 := by
  unfold given at he
  rcases List.mem_append.1 he with he | he
  · obtain ⟨c, hm, h⟩ := List.mem_filterMap.1 he
    have hu := hc c hm
    cases c with
    | file p =>
      obtain ⟨d, -, rfl⟩ := Option.map_eq_some_iff.1 h
      exact hu.2
    | buffer n d => exact absurd h (by simp)
    | folder l => exact absurd h (by simp)
  rcases List.mem_append.1 he with he | he
  · obtain ⟨c, hm, h⟩ := List.mem_filterMap.1 he
    have hu := hc c hm
    cases c with
    | file p => exact absurd h (by simp)
    | buffer n d =>
      simp only at h
      split at h
      · exact absurd h (by simp)
      · rw [← Option.some.inj h]; exact hu
    | folder l => exact absurd h (by simp)
  · obtain ⟨n, hm, h⟩ := List.mem_filterMap.1 he
    obtain ⟨l, -, h⟩ := List.exists_of_findSome?_eq_some h
    obtain ⟨d, -, rfl⟩ := Option.map_eq_some_iff.1 h
    exact hg n hm

theorem mem_folders {calls : List Call} (hc : ∀ c ∈ calls, c.Usual) : ∀ l ∈ folders calls, ∀ q ∈ l, Plain q := by
  intro l hl
  obtain ⟨c, hm, h⟩ := List.mem_filterMap.1 hl
  have hu := hc c hm
  cases c with
  | file p => exact absurd h (by simp)
  | buffer n d => exact absurd h (by simp)
  | folder l' => rw [← Option.some.inj h]; exact hu

theorem given_length (fs : Fs) (calls : List Call) : (files fs calls).length + (buffers calls).length ≤ calls.length := by
  induction calls with
  | nil => simp [files, buffers]
  | cons c t ih =>
    have h1 : files fs (c :: t) = files fs [c] ++ files fs t := by
      rw [← List.singleton_append (l := t)]; simp only [files, List.filterMap_append]
    have h2 : buffers (c :: t) = buffers [c] ++ buffers t := by
      rw [← List.singleton_append (l := t)]; simp only [buffers, List.filterMap_append]
    rw [h1, h2]
    have : (files fs [c]).length + (buffers [c]).length ≤ 1 := by
      cases c with
      | file p => cases h : fs.file p.text <;> simp [files, buffers, h]
      | buffer n d => by_cases hd : d = [] <;> simp [files, buffers, hd]
      | folder l => simp [files, buffers]
    simp only [List.length_append, List.length_cons]
    omega

/-- What `Close` writes, for a new object on which the calls have been made. -/
theorem close_new {codec : Codec} {fuel : Nat} (stamps : Nat → Stamp) (fs : Fs) (calls : List Call) (hc : ∀ c ∈ calls, c.Usual)
    (gdtfs : List (List Char)) (hg : ∀ n ∈ gdtfs, Plain n) (hcase : OneCase gdtfs) (p : Place) (hp : p.Usual) (xml : List Byte) :
    ∃ es o, (es.length ≤ calls.length + gdtfs.length + 1 ∧ (∀ e ∈ es, '\\' ∉ e.1) ∧
      unused [] es = (descName, xml) :: unused [descName] (given fs calls gdtfs)) ∧
      (perform fs {} calls).openWrite p.text = (.noError, o) ∧
      ∀ z, addEntries codec fuel (openNewWrite true) (stampAll stamps 0 es) = .ok z →
        ∃ o', o.close codec fuel stamps fs xml gdtfs = .ok (.noError, o', fs.write (some ⟨[] :: p.folders, p.name⟩) z.data) := by
  have hperf := perform_eq fs calls hc {}
  simp only at hperf
  obtain ⟨h1, h2, h3, h4, h5, h6, h7, h8, h9⟩ := hperf
  obtain ⟨rest, r1, r2, r3⟩ := addNeeded_foldl gdtfs [] (by simpa using hcase)
  rw [List.nil_append] at r1
  have hopen : (perform fs {} calls).openWrite p.text =
      (.noError, { perform fs {} calls with path := some ⟨[] :: p.folders, p.name⟩, write := true }) := by
    unfold Mvr.openWrite
    rw [setText_plain hp]
  have hloc : ∀ n ∈ gdtfs, locate fs (perform fs {} calls).folders n =
      (folders calls).findSome? (fun l => (fs.file (folderText l ++ n)).map (fun d => (n, d))) := by
    intro n hn
    rw [h9, List.nil_append, locate_eq fs _ (mem_folders hc) n (hg n hn)]
  have hnames : ∀ (n : List Char) (e : List Char × List Byte),
      (folders calls).findSome? (fun l => (fs.file (folderText l ++ n)).map (fun d => (n, d))) = some e → e.1 = n := by
    intro n e h
    obtain ⟨l, -, h⟩ := List.exists_of_findSome?_eq_some h
    obtain ⟨d, -, rfl⟩ := Option.map_eq_some_iff.1 h
    rfl
  let es := (descName, xml) :: (files fs calls ++ (buffers calls ++ rest.filterMap (fun n =>
    (folders calls).findSome? (fun l => (fs.file (folderText l ++ n)).map (fun d => (n, d))))))
  have hes : Mvr.entries fs { perform fs {} calls with
      path := some ⟨[] :: p.folders, p.name⟩, write := true, needed := rest } xml = es := by
    unfold Mvr.entries
    simp only
    rw [h7, h8]
    simp only [List.filterMap_nil, List.nil_append]
    have : rest.filterMap (locate fs (perform fs {} calls).folders) = rest.filterMap (fun n =>
        (folders calls).findSome? (fun l => (fs.file (folderText l ++ n)).map (fun d => (n, d)))) := by
      have : ∀ l : List (List Char), (∀ n ∈ l, n ∈ gdtfs) → l.filterMap (locate fs (perform fs {} calls).folders) = l.filterMap (fun n =>
          (folders calls).findSome? (fun l => (fs.file (folderText l ++ n)).map (fun d => (n, d)))) := by
        intro l hl
        induction l with
        | nil => rfl
        | cons n t ih =>
          rw [List.filterMap_cons, List.filterMap_cons, hloc n (hl n (by simp)), ih (fun m hm => hl m (by simp [hm]))]
      exact this rest r2.1
    rw [this]
  have hun : unused [] es = (descName, xml) :: unused [descName] (given fs calls gdtfs) := by
    show unused [] ((descName, xml) :: _) = _
    rw [unused, if_neg (by simp), List.nil_append]
    congr 1
    unfold given gdtfFiles
    refine unused_append_congr _ _ _ (unused_append_congr _ _ _ ?_) _
    intro used
    exact r3 _ hnames used (by simp)
  refine ⟨es, _, ⟨?_, ?_, hun⟩, hopen, ?_⟩
  · have l1 : (files fs calls).length + (buffers calls).length ≤ calls.length := by
      exact given_length fs calls
    have l2 := List.length_filterMap_le (fun n =>
      (folders calls).findSome? (fun l => (fs.file (folderText l ++ n)).map (fun d => (n, d)))) rest
    have := r2.2
    show ((descName, xml) :: _).length ≤ _
    simp only [List.length_cons, List.length_append]
    omega
  · intro e he
    have hmem : e = (descName, xml) ∨ Plain e.1 := by
      rcases List.mem_cons.1 he with he | he
      · exact Or.inl he
      · refine Or.inr (mem_given (fs := fs) (calls := calls) (gdtfs := rest) hc (fun n hn => hg n (r2.1 n hn)) ?_)
        exact he
    rcases hmem with rfl | h
    · exact (by decide : '\\' ∉ descName)
    · exact plain_no_backslash h
  · intro z hz
    unfold Mvr.close
    simp only [if_true]
    rw [h4, r1, hes, hz]
    exact ⟨_, rfl⟩

/-- C77: an application gives files, buffers and folders with GDTF files to a new MVR object, in any order and number, and closes
it. Whoever reads the file later — with any object, whatever it has done before, when the file and the working folder are there — gets
the description of the scene as it was written, and the object lists, after what it has listed before, exactly what has been given —
files, then buffers, then the GDTF files of the scene, in the order of the calls, every name once — in files of the working folder that
have the contents. Nothing else on the disk changes. -/
theorem C77_any_reader_partial {codec : Codec} (hcodec : Lossless codec) (fuel : Nat) (stamps : Nat → Stamp)
    (W : List (List Char)) (hW : ∀ q ∈ W, Plain q) (fs : Fs)
    (calls : List Call) (hc : ∀ c ∈ calls, c.Usual) (gdtfs : List (List Char)) (hg : ∀ n ∈ gdtfs, Plain n) (hcase : OneCase gdtfs)
    (p : Place) (hp : p.Usual) (hdir : fs.dir (folderText p.folders) = true)
    (xml : List Byte) (hfit : Fits codec true ((descName, xml) :: unused [descName] (given fs calls gdtfs)))
    (hf : calls.length + gdtfs.length + 2 ≤ fuel) :
    let back := unused [descName] (given fs calls gdtfs)
    ∃ o o' fs1, (perform fs {} calls).openWrite p.text = (.noError, o) ∧
      o.close codec fuel stamps fs xml gdtfs = .ok (.noError, o', fs1) ∧
      (∀ q, q ≠ p.text → fs1.file q = fs.file q) ∧ fs1.dir = fs.dir ∧ (fs1.file p.text).isSome ∧
      ∀ (stale : Byte) (garbage : FileInfo) (o0 : Mvr) (later : Fs), later.file p.text = fs1.file p.text →
        later.dir (folderText W) = true → ∃ r fs2,
        o0.openRead codec fuel stale garbage ([] :: W) later p.text = .ok (.noError, r, fs2) ∧
        r.desc = some xml ∧ r.count = o0.count + back.length ∧
        (∀ i < o0.count, r.at_ i = o0.at_ i) ∧
        (∀ i (h : i < back.length), r.at_ (o0.count + i) = folderText W ++ back[i].1 ∧
          fs2.file (folderText W ++ back[i].1) = some back[i].2) ∧
        (∀ q, (∀ e ∈ back, q ≠ folderText W ++ e.1) → fs2.file q = later.file q) := by
  intro back
  obtain ⟨es, o, ⟨hlen, hbs, hun⟩, hopen, hclose⟩ := close_new (codec := codec) (fuel := fuel) stamps fs calls hc gdtfs hg hcase p hp xml
  obtain ⟨z, hz, ee, hread⟩ := pack_read (c := true) (fun _ => hcodec) fuel stamps es hbs (by rw [hun]; exact hfit) (by omega)
  obtain ⟨o', hcl⟩ := hclose z hz
  have hw1 := write_plain fs p.folders p.name hp.1 hp.2 hdir z.data
  rw [hw1] at hcl
  have hsame : (fs.put (folderText p.folders ++ p.name) (some z.data)).file p.text = some z.data := put_same ..
  refine ⟨o, o', _, hopen, hcl, fun q hq => put_other _ _ _ _ hq, rfl, by rw [hsame]; rfl, ?_⟩
  intro stale garbage o0 later hlater hd2
  obtain ⟨hwalk, hget⟩ := hread stale garbage
  rw [hsame] at hlater
  unfold Mvr.openRead
  rw [setText_plain hp]
  simp only
  have hfull : File.fullPath ⟨[] :: p.folders, p.name⟩ = p.text := fullPath_plain _ _ hp.1 hp.2
  rw [hfull, hlater, Option.getD_some, readLoop_walk _ _ _ _ _ hwalk hget, hun, List.map_cons, List.foldl_cons]
  have htake : Got.take ([] :: W) ⟨later, o0.attached, none⟩ (enc descName, xml).1 (some (enc descName, xml).2) =
      ⟨later, o0.attached, some xml⟩ := by
    unfold Got.take
    rw [if_pos rfl]
    rfl
  rw [htake]
  have hfold := take_fold W hW back (fun e he => mem_given hc hg (unused_sub _ _ e he).1)
    (fun e he h => (unused_sub _ _ e he).2 (by simp [h])) (unused_nodup _ _) ⟨later, o0.attached, some xml⟩ hd2
  simp only at hfold
  obtain ⟨f1, f2, f3, f4, -⟩ := hfold
  simp only [bind, Except.bind]
  refine ⟨_, _, rfl, f2, ?_, ?_, ?_, f4⟩
  · unfold Mvr.count
    simp only
    rw [f1]
    simp
  · intro i hi
    unfold Mvr.at_
    simp only
    rw [f1, List.getElem?_append_left hi]
  · intro i h
    refine ⟨?_, f3 _ (List.getElem_mem h)⟩
    have key : ∀ (o : Mvr), o.attached = o0.attached ++ back.map (fun e => some ⟨[] :: W, e.1⟩) →
        o.at_ (o0.count + i) = folderText W ++ back[i].1 := by
      intro o ho
      unfold Mvr.at_ Mvr.count
      rw [ho, List.getElem?_append_right (by omega), Nat.add_sub_cancel_left, List.getElem?_map, List.getElem?_eq_getElem h]
      simp only [Option.map_some]
      exact fullPath_plain W _ hW (mem_given hc hg (unused_sub _ _ _ (List.getElem_mem h)).1)
    exact key _ f1

/-- C77 for a new object: it lists exactly what has been given, in a working folder made for it. -/
theorem C77_round_trip_partial {codec : Codec} (hcodec : Lossless codec) (fuel : Nat) (stamps : Nat → Stamp)
    (W : List (List Char)) (hW : ∀ q ∈ W, Plain q) (hne : W ≠ []) (fs : Fs) (hup : fs.dir (folderText W.dropLast) = true)
    (calls : List Call) (hc : ∀ c ∈ calls, c.Usual) (gdtfs : List (List Char)) (hg : ∀ n ∈ gdtfs, Plain n) (hcase : OneCase gdtfs)
    (p : Place) (hp : p.Usual) (hdir : fs.dir (folderText p.folders) = true) (hout : Outside W p.text)
    (xml : List Byte) (hfit : Fits codec true ((descName, xml) :: unused [descName] (given fs calls gdtfs)))
    (hf : calls.length + gdtfs.length + 2 ≤ fuel) :
    let back := unused [descName] (given fs calls gdtfs)
    ∃ o o' fs1, (perform fs {} calls).openWrite p.text = (.noError, o) ∧
      o.close codec fuel stamps fs xml gdtfs = .ok (.noError, o', fs1) ∧
      (∀ q, q ≠ p.text → fs1.file q = fs.file q) ∧
      ∀ stale garbage, ∃ r fs2,
        (Mvr.new ([] :: W) fs1).1.openRead codec fuel stale garbage ([] :: W) (Mvr.new ([] :: W) fs1).2 p.text =
          .ok (.noError, r, fs2) ∧
        r.desc = some xml ∧ r.count = back.length ∧
        (∀ i (h : i < back.length), r.at_ i = folderText W ++ back[i].1 ∧ fs2.file (r.at_ i) = some back[i].2) ∧
        (∀ q, Outside W q → fs2.file q = fs1.file q) := by
  intro back
  obtain ⟨o, o', fs1, h1, h2, h3, h4, -, h5⟩ := C77_any_reader_partial hcodec fuel stamps W hW fs calls hc gdtfs hg hcase p hp hdir xml hfit hf
  refine ⟨o, o', fs1, h1, h2, h3, ?_⟩
  intro stale garbage
  obtain ⟨r, fs2, r1, r2, r3, -, r5, r6⟩ := h5 stale garbage {} (fs1.fresh ([] :: W)) (by rw [fresh_same])
    (fresh_dir fs1 W hW hne (by rw [h4]; exact hup))
  have hz : Mvr.count {} = 0 := rfl
  simp only [hz, Nat.zero_add] at r3 r5
  refine ⟨r, fs2, r1, r2, r3, ?_, ?_⟩
  · intro i h
    rw [(r5 i h).1]
    exact ⟨rfl, (r5 i h).2⟩
  · intro q hq
    rw [r6 q (fun e _ he => hq ⟨_, he⟩)]
    rw [fresh_same]

/-- C77: what the calls return. A file is taken exactly when it exists, a buffer exactly when it has a name and a content; what is
not taken leaves the object as it is. -/
theorem C77_calls (fs : Fs) (o : Mvr) :
    (∀ p : Place, p.Usual →
      (o.addFile fs p.text).1 = (if (fs.file p.text).isSome then .noError else .failed) ∧
      ((o.addFile fs p.text).1 ≠ .noError → (o.addFile fs p.text).2 = o)) ∧
    (∀ n d, (o.addBuffer n d).1 = (if n ≠ [] ∧ d ≠ none ∧ d ≠ some [] then .noError else .invalidArg) ∧
      ((o.addBuffer n d).1 ≠ .noError → (o.addBuffer n d).2 = o)) := by
  constructor
  · intro p hp
    have hc : fs.content (some ⟨[] :: p.folders, p.name⟩) = fs.file p.text := by
      unfold Fs.content
      rw [Option.bind_some, fullPath_plain _ _ hp.1 hp.2]
      rfl
    unfold Mvr.addFile
    rw [setText_plain hp]
    simp only [hc]
    cases fs.file p.text <;> simp
  · intro n d
    unfold Mvr.addBuffer
    by_cases hn : n = []
    · simp [hn]
    · rw [if_neg hn]
      cases d with
      | none => simp
      | some d => cases d <;> simp [hn]

/-- C77: nothing is lost when the names are different and none is that of the description: what comes back (`back` of
`C77_round_trip_partial`) is everything that has been given. -/
theorem C77_complete (fs : Fs) (calls : List Call) (gdtfs : List (List Char))
    (hd : (given fs calls gdtfs).Pairwise (fun a b => a.1 ≠ b.1)) (hx : ∀ e ∈ given fs calls gdtfs, e.1 ≠ descName) :
    unused [descName] (given fs calls gdtfs) = given fs calls gdtfs :=
  unused_self _ _ hd (fun e he => by simpa using hx e he)

/-! ## Violations -/

/-- C77 is violated: of two files with the same name from different folders only the first is in the package, although every call
reports success. -/
theorem C77_same_name_violated {codec : Codec} (hcodec : Lossless codec) (fuel : Nat) (stamps : Nat → Stamp)
    (W : List (List Char)) (hW : ∀ q ∈ W, Plain q) (hne : W ≠ []) (fs : Fs) (hup : fs.dir (folderText W.dropLast) = true)
    (a b : List (List Char)) (n : List Char) (ha : Place.Usual ⟨a, n⟩) (hb : Place.Usual ⟨b, n⟩) (d1 d2 : List Byte)
    (h1 : fs.file (Place.text ⟨a, n⟩) = some d1) (h2 : fs.file (Place.text ⟨b, n⟩) = some d2) (hn : n ≠ descName)
    (p : Place) (hp : p.Usual) (hdir : fs.dir (folderText p.folders) = true) (hout : Outside W p.text)
    (xml : List Byte) (hfit : Fits codec true [(descName, xml), (n, d1)]) (hf : 4 ≤ fuel) :
    (Mvr.addFile fs {} (Place.text ⟨a, n⟩)).1 = .noError ∧
    ((Mvr.addFile fs {} (Place.text ⟨a, n⟩)).2.addFile fs (Place.text ⟨b, n⟩)).1 = .noError ∧
    ∃ o o' fs1, (perform fs {} [.file ⟨a, n⟩, .file ⟨b, n⟩]).openWrite p.text = (.noError, o) ∧
      o.close codec fuel stamps fs xml [] = .ok (.noError, o', fs1) ∧
      ∀ stale garbage, ∃ r fs2,
        (Mvr.new ([] :: W) fs1).1.openRead codec fuel stale garbage ([] :: W) (Mvr.new ([] :: W) fs1).2 p.text =
          .ok (.noError, r, fs2) ∧
        r.count = 1 ∧ r.at_ 0 = folderText W ++ n ∧ fs2.file (r.at_ 0) = some d1 := by
  have hgiven : given fs [.file ⟨a, n⟩, .file ⟨b, n⟩] [] = [(n, d1), (n, d2)] := by
    simp [given, files, buffers, gdtfFiles, h1, h2]
  have hback : unused [descName] (given fs [.file ⟨a, n⟩, .file ⟨b, n⟩] []) = [(n, d1)] := by
    rw [hgiven]
    simp [unused, hn]
  refine ⟨?_, ?_, ?_⟩
  · rw [((C77_calls fs {}).1 _ ha).1, h1]; rfl
  · rw [((C77_calls fs _).1 _ hb).1, h2]; rfl
  · obtain ⟨o, o', fs1, q1, q2, -, q4⟩ := C77_round_trip_partial hcodec fuel stamps W hW hne fs hup [.file ⟨a, n⟩, .file ⟨b, n⟩]
      (by intro c hc; simp at hc; rcases hc with rfl | rfl; exact ha; exact hb) [] (by simp) (by intro a ha; simp at ha) p hp hdir hout xml
      (by rw [hback]; exact hfit) hf
    refine ⟨o, o', fs1, q1, q2, ?_⟩
    intro stale garbage
    obtain ⟨r, fs2, r1, -, r3, r4, -⟩ := q4 stale garbage
    rw [hback] at r3 r4
    have := r4 0 (by simp)
    exact ⟨r, fs2, r1, r3, this.1, this.2⟩

/-- C77 is violated: a GDTF file that is in none of the folders is left out, and everything reports success. -/
theorem C77_missing_gdtf_violated {codec : Codec} (hcodec : Lossless codec) (fuel : Nat) (stamps : Nat → Stamp)
    (W : List (List Char)) (hW : ∀ q ∈ W, Plain q) (hne : W ≠ []) (fs : Fs) (hup : fs.dir (folderText W.dropLast) = true)
    (l : List (List Char)) (hl : ∀ q ∈ l, Plain q) (n : List Char) (hn : Plain n) (hno : fs.file (folderText l ++ n) = none)
    (p : Place) (hp : p.Usual) (hdir : fs.dir (folderText p.folders) = true) (hout : Outside W p.text)
    (xml : List Byte) (hfit : Fits codec true [(descName, xml)]) (hf : 4 ≤ fuel) :
    ∃ o o' fs1, (perform fs {} [.folder l]).openWrite p.text = (.noError, o) ∧
      o.close codec fuel stamps fs xml [n] = .ok (.noError, o', fs1) ∧
      ∀ stale garbage, ∃ r fs2,
        (Mvr.new ([] :: W) fs1).1.openRead codec fuel stale garbage ([] :: W) (Mvr.new ([] :: W) fs1).2 p.text =
          .ok (.noError, r, fs2) ∧ r.desc = some xml ∧ r.count = 0 := by
  have hback : unused [descName] (given fs [.folder l] [n]) = [] := by
    have : given fs [.folder l] [n] = [] := by
      simp [given, files, buffers, gdtfFiles, folders, hno]
    rw [this]; rfl
  obtain ⟨o, o', fs1, q1, q2, -, q4⟩ := C77_round_trip_partial hcodec fuel stamps W hW hne fs hup [.folder l]
    (by intro c hc; simp at hc; rw [hc]; exact hl) [n] (by simpa using hn)
    (by intro x hx y hy _; simp at hx hy; rw [hx, hy]) p hp hdir hout xml (by rw [hback]; exact hfit) hf
  refine ⟨o, o', fs1, q1, q2, ?_⟩
  intro stale garbage
  obtain ⟨r, fs2, r1, r2, r3, -⟩ := q4 stale garbage
  rw [hback] at r3
  exact ⟨r, fs2, r1, r2, r3⟩

/-- C77 is violated: of two GDTF files whose names differ only in upper and lower case the second is left out: the result is the
same as if the scene did not use it. -/
theorem C77_case_violated (codec : Codec) (fuel : Nat) (stamps : Nat → Stamp) (fs : Fs) (o : Mvr) (xml : List Byte)
    (a b : List Char) (h : eqNoCase a b = true) :
    o.close codec fuel stamps fs xml [a, b] = o.close codec fuel stamps fs xml [a] := by
  have : [a, b].foldl addNeeded o.needed = [a].foldl addNeeded o.needed := by
    simp only [List.foldl_cons, List.foldl_nil]
    have hm : ∃ m ∈ addNeeded o.needed a, eqNoCase m a = true := by
      unfold addNeeded
      split
      · rename_i ha
        exact List.any_eq_true.1 ha
      · exact ⟨a, by simp, by simp [eqNoCase]⟩
    obtain ⟨m, hm, hma⟩ := hm
    have hmb : eqNoCase m b = true := by
      unfold eqNoCase at *
      rw [decide_eq_true_eq] at *
      rw [hma, h]
    rw [addNeeded, if_pos (List.any_eq_true.2 ⟨m, hm, hmb⟩)]
  unfold Mvr.close
  rw [this]

/-- C77 is violated: a file that has been added and is gone when the package is closed is left out, and `Close` reports success: it
writes the same package as if the file had never been added. -/
theorem C77_vanished_violated (codec : Codec) (fuel : Nat) (stamps : Nat → Stamp) (fs fs' : Fs) (o : Mvr) (p : Place) (hp : p.Usual)
    (d : List Byte) (h1 : fs.file p.text = some d) (h2 : fs'.file p.text = none) (xml : List Byte) (gdtfs : List (List Char)) :
    (o.addFile fs p.text).1 = .noError ∧
    ((o.addFile fs p.text).2.close codec fuel stamps fs' xml gdtfs).map (fun r => (r.1, r.2.2)) =
      (o.close codec fuel stamps fs' xml gdtfs).map (fun r => (r.1, r.2.2)) := by
  refine ⟨by rw [((C77_calls fs o).1 _ hp).1, h1]; rfl, ?_⟩
  have hc : fs.content (some ⟨[] :: p.folders, p.name⟩) = fs.file p.text := by
    unfold Fs.content
    rw [Option.bind_some, fullPath_plain _ _ hp.1 hp.2]
    rfl
  have e : (o.addFile fs p.text).2 = { o with files := o.files ++ [⟨[] :: p.folders, p.name⟩] } := by
    unfold Mvr.addFile
    rw [setText_plain hp]
    simp only [hc, h1, Option.isSome_some, if_true]
  have hno : fileEntry fs' (some ⟨[] :: p.folders, p.name⟩) = none := by
    unfold fileEntry
    rw [Option.bind_some, fullPath_plain _ _ hp.1 hp.2]
    have : fs'.file (folderText p.folders ++ p.name) = none := h2
    rw [this]; rfl
  rw [e]
  unfold Mvr.close
  simp only
  have hent : ∀ needed, Mvr.entries fs' { o with files := o.files ++ [⟨[] :: p.folders, p.name⟩], needed := needed } xml =
      Mvr.entries fs' { o with needed := needed } xml := by
    intro needed
    unfold Mvr.entries
    simp [List.filterMap_append, hno]
  split
  · rw [hent]
    cases addEntries codec fuel (openNewWrite true)
      (stampAll stamps 0 (Mvr.entries fs' { o with needed := gdtfs.foldl addNeeded o.needed } xml)) <;> rfl
  · split <;> rfl

/-- C77 is violated: the buffers are only in the package written by the first `Close`. A second `Close` — the object is still open
for writing — replaces it by one without them. -/
theorem C77_close_twice_violated (codec : Codec) (fuel : Nat) (stamps : Nat → Stamp) (fs : Fs) (o o' : Mvr) (fs1 : Fs)
    (xml : List Byte) (gdtfs : List (List Char)) (hw : o.write = true)
    (h : o.close codec fuel stamps fs xml gdtfs = .ok (.noError, o', fs1)) :
    o' = { o with buffers := [], needed := gdtfs.foldl addNeeded o.needed } ∧ o'.write = true := by
  unfold Mvr.close at h
  rw [if_pos hw] at h
  simp only at h
  cases hz : addEntries codec fuel (openNewWrite true)
      (stampAll stamps 0 (Mvr.entries fs { o with needed := gdtfs.foldl addNeeded o.needed } xml)) with
  | error e => rw [hz] at h; exact absurd h (by simp [bind, Except.bind])
  | ok z =>
    rw [hz] at h
    simp only [bind, Except.bind, Except.ok.injEq, Prod.mk.injEq, true_and] at h
    exact ⟨h.1.symm, by rw [← h.1]; exact hw⟩

/-- C77 is violated: reading a file that does not exist reports success. -/
theorem C77_missing_file_violated (codec : Codec) (fuel : Nat) (hf : fuel ≠ 0) (stale : Byte) (garbage : FileInfo)
    (W : List (List Char)) (fs : Fs) (o : Mvr) (p : Place) (hp : p.Usual) (h : fs.file p.text = none) :
    ∃ r, o.openRead codec fuel stale garbage W fs p.text = .ok (.noError, r, fs) ∧ r.attached = o.attached ∧ r.desc = none := by
  obtain ⟨k, rfl⟩ : ∃ k, fuel = k + 1 := ⟨fuel - 1, by omega⟩
  have hn : getNextFile (k + 1) [] stale [] = .ok (.failed, []) := rfl
  unfold Mvr.openRead
  rw [setText_plain hp]
  simp only
  have hfull : File.fullPath ⟨[] :: p.folders, p.name⟩ = p.text := fullPath_plain _ _ hp.1 hp.2
  rw [hfull, h, Option.getD_none, readLoop, hn]
  exact ⟨_, rfl, rfl, rfl⟩

/-- C77 is violated: the working folder of a new object is not empty (SceneDataExchange.cpp:2865 says it is): all files of other objects
and of earlier runs of the program are still in it. -/
theorem C77_not_empty_violated (W : List (List Char)) (fs : Fs) : (Mvr.new W fs).2.file = fs.file := fresh_same fs W

/-- C77 is violated: all objects share the working folder.  When a new object reads a package, each file with the same name that another
object `o2` lists has the content from that package. -/
theorem C77_shared_folder_violated {codec : Codec} (hcodec : Lossless codec) (fuel : Nat) (stamps : Nat → Stamp)
    (W : List (List Char)) (hW : ∀ q ∈ W, Plain q) (hne : W ≠ []) (fs : Fs) (hup : fs.dir (folderText W.dropLast) = true)
    (calls : List Call) (hc : ∀ c ∈ calls, c.Usual) (gdtfs : List (List Char)) (hg : ∀ n ∈ gdtfs, Plain n) (hcase : OneCase gdtfs)
    (p : Place) (hp : p.Usual) (hdir : fs.dir (folderText p.folders) = true) (hout : Outside W p.text)
    (xml : List Byte) (hfit : Fits codec true ((descName, xml) :: unused [descName] (given fs calls gdtfs)))
    (hf : calls.length + gdtfs.length + 2 ≤ fuel) (stale : Byte) (garbage : FileInfo) (o2 : Mvr) (j i : Nat)
    (hi : i < (unused [descName] (given fs calls gdtfs)).length)
    (hj : o2.at_ j = folderText W ++ ((unused [descName] (given fs calls gdtfs))[i]).1) :
    ∃ o o' fs1 r fs2, (perform fs {} calls).openWrite p.text = (.noError, o) ∧
      o.close codec fuel stamps fs xml gdtfs = .ok (.noError, o', fs1) ∧
      (Mvr.new ([] :: W) fs1).1.openRead codec fuel stale garbage ([] :: W) (Mvr.new ([] :: W) fs1).2 p.text = .ok (.noError, r, fs2) ∧
      fs2.file (o2.at_ j) = some ((unused [descName] (given fs calls gdtfs))[i]).2 := by
  obtain ⟨o, o', fs1, h1, h2, -, h3⟩ := C77_round_trip_partial hcodec fuel stamps W hW hne fs hup calls hc gdtfs hg hcase p hp hdir hout xml hfit hf
  obtain ⟨r, fs2, r1, -, -, r2, -⟩ := h3 stale garbage
  refine ⟨o, o', fs1, r, fs2, h1, h2, r1, ?_⟩
  rw [hj, ← (r2 i hi).1]
  exact (r2 i hi).2

/-- C77 is violated: an object that is destroyed deletes the files of another one that has read a package with the same names. -/
theorem C77_destroyed_violated (W : List (List Char)) (hW : ∀ q ∈ W, Plain q) (n : List Char) (hn : Plain n) (fs : Fs) (o o' : Mvr)
    (h : some ⟨[] :: W, n⟩ ∈ o.attached) (i : Nat) (hi : o'.attached[i]? = some (some ⟨[] :: W, n⟩)) :
    (o.delete fs).file (o'.at_ i) = none := by
  have e : o'.at_ i = folderText W ++ n := by
    unfold Mvr.at_
    rw [hi]
    exact fullPath_plain W n hW hn
  rw [e]
  unfold Mvr.delete
  have gone : ∀ (l : List (Option File)) (fs : Fs), fs.file (folderText W ++ n) = none →
      (l.foldl Fs.remove fs).file (folderText W ++ n) = none := by
    intro l
    induction l with
    | nil => exact fun _ h => h
    | cons f t ih =>
      intro fs h
      refine ih _ ?_
      cases f with
      | none => exact h
      | some f =>
        show (fs.put f.fullPath none).file _ = none
        unfold Fs.put
        simp only
        split
        · rfl
        · exact h
  revert fs
  generalize o.attached = l at h
  induction l with
  | nil => simp at h
  | cons f t ih =>
    intro fs
    rw [List.foldl_cons]
    rcases List.mem_cons.1 h with h | h
    · refine gone t _ ?_
      rw [← h, remove_plain fs W n hW hn]
      exact put_same ..
    · exact ih h _

/-- What reading has already listed is still listed after reading another file: the list only grows. -/
theorem readLoop_attached {codec : Codec} {fuel : Nat} {stale : Byte} {garbage : FileInfo} {working : List (List Char)} {data : List Byte} :
    ∀ rounds path g r, readLoop codec fuel stale garbage working data rounds path g = .ok r → ∃ more, r.attached = g.attached ++ more := by
  intro rounds
  induction rounds with
  | zero => intro path g r h; exact absurd h (by simp [readLoop])
  | succ k ih =>
    intro path g r h
    unfold readLoop at h
    cases hn : getNextFile fuel data stale path with
    | error e => rw [hn] at h; exact absurd h (by simp [bind, Except.bind])
    | ok v =>
      rw [hn] at h
      simp only [bind, Except.bind] at h
      split at h
      · cases hg : getFile codec fuel data garbage v.2 with
        | error e => rw [hg] at h; exact absurd h (by simp)
        | ok w =>
          rw [hg] at h
          obtain ⟨more, hm⟩ := ih _ _ _ h
          rw [hm]
          unfold Got.take
          split
          · exact ⟨more, rfl⟩
          · exact ⟨_, List.append_assoc ..⟩
      · cases h
        exact ⟨[], by simp⟩

/-- C77 is violated: an object that reads a second file lists the files of the first as well. -/
theorem C77_read_twice_violated (codec : Codec) (fuel : Nat) (stale : Byte) (garbage : FileInfo) (W : List (List Char)) (fs : Fs)
    (o : Mvr) (text : List Char) (e : Err) (r : Mvr) (fs' : Fs)
    (h : o.openRead codec fuel stale garbage W fs text = .ok (e, r, fs')) :
    o.count ≤ r.count ∧ ∀ i < o.count, r.at_ i = o.at_ i := by
  have : ∃ more, r.attached = o.attached ++ more := by
    unfold Mvr.openRead at h
    split at h
    · cases h
      exact ⟨[], by simp⟩
    · rename_i f _
      cases hr : readLoop codec fuel stale garbage W ((fs.file f.fullPath).getD []) fuel [] ⟨fs, o.attached, none⟩ with
      | error e => rw [hr] at h; exact absurd h (by simp [bind, Except.bind])
      | ok g =>
        rw [hr] at h
        cases h
        exact readLoop_attached _ _ _ _ hr
  obtain ⟨more, hm⟩ := this
  constructor
  · unfold Mvr.count
    rw [hm, List.length_append]
    omega
  · intro i hi
    unfold Mvr.at_
    rw [hm, List.getElem?_append_left hi]

/-- C77 is violated: a buffer whose name has a folder in it is in the package, and the reader lists it, but there is no such file:
the folder is not made. -/
theorem C77_sub_folder_violated {codec : Codec} (hcodec : Lossless codec) (fuel : Nat) (stamps : Nat → Stamp)
    (W : List (List Char)) (hW : ∀ q ∈ W, Plain q) (hne : W ≠ []) (fs : Fs) (hup : fs.dir (folderText W.dropLast) = true)
    (a n : List Char) (ha : Plain a) (hn : Plain n) (d : List Byte) (hd : d ≠ [])
    (hsub0 : fs.dir (folderText (W ++ [a])) = false) (hno : fs.file (folderText W ++ (a ++ '/' :: n)) = none)
    (p : Place) (hp : p.Usual) (hdir : fs.dir (folderText p.folders) = true) (hout : Outside W p.text)
    (xml : List Byte) (hfit : Fits codec true [(descName, xml), (a ++ '/' :: n, d)]) (hf : 4 ≤ fuel) :
    (Mvr.addBuffer {} (a ++ '/' :: n) (some d)).1 = .noError ∧
    ∃ o o' fs1, (Mvr.addBuffer {} (a ++ '/' :: n) (some d)).2.openWrite p.text = (.noError, o) ∧
      o.close codec fuel stamps fs xml [] = .ok (.noError, o', fs1) ∧
      ∀ stale garbage, ∃ r fs2,
        (Mvr.new ([] :: W) fs1).1.openRead codec fuel stale garbage ([] :: W) (Mvr.new ([] :: W) fs1).2 p.text =
          .ok (.noError, r, fs2) ∧
        r.count = 1 ∧ r.at_ 0 = folderText W ++ (a ++ '/' :: n) ∧ fs2.file (r.at_ 0) = none := by
  have hane : a ++ '/' :: n ≠ [] := by simp
  have hadd : Mvr.addBuffer {} (a ++ '/' :: n) (some d) = (.noError, { buffers := [(a ++ '/' :: n, d)] }) := by
    unfold Mvr.addBuffer
    rw [if_neg hane]
    simp only
    rw [if_neg (by simpa using hd)]
    rfl
  rw [hadd]
  refine ⟨rfl, ?_⟩
  have hwa : ∀ q ∈ W ++ [a], Plain q := fun q hq => (List.mem_append.1 hq).elim (hW q) (by rintro h; rw [List.mem_singleton.1 h]; exact ha)
  have htext : folderText (W ++ [a]) ++ n = folderText W ++ (a ++ '/' :: n) := by simp [folderText]
  have hun : unused [] [(descName, xml), (a ++ '/' :: n, d)] = [(descName, xml), (a ++ '/' :: n, d)] := by
    have : a ++ '/' :: n ≠ descName := fun h => by
      have h1 : '/' ∈ a ++ '/' :: n := by simp
      rw [h] at h1
      exact absurd h1 (by decide)
    simp [unused, this]
  obtain ⟨z, hz, ee, hread⟩ := pack_read (c := true) (fun _ => hcodec) fuel stamps [(descName, xml), (a ++ '/' :: n, d)] (by
      intro e he
      simp only [List.mem_cons, List.not_mem_nil, or_false] at he
      rcases he with rfl | rfl
      · exact (by decide : '\\' ∉ descName)
      · simp [plain_no_backslash ha, plain_no_backslash hn]) (by rw [hun]; exact hfit) (by simp; omega)
  have hw1 := write_plain fs p.folders p.name hp.1 hp.2 hdir z.data
  have hcl : ∃ o', Mvr.close codec fuel stamps fs { path := some ⟨[] :: p.folders, p.name⟩, write := true, buffers := [(a ++ '/' :: n, d)] } xml [] =
      .ok (.noError, o', fs.put (folderText p.folders ++ p.name) (some z.data)) := by
    unfold Mvr.close
    simp only [if_true, List.foldl_nil]
    have : Mvr.entries fs { path := some ⟨[] :: p.folders, p.name⟩, write := true, buffers := [(a ++ '/' :: n, d)] } xml =
        [(descName, xml), (a ++ '/' :: n, d)] := rfl
    rw [this, hz]
    simp only [bind, Except.bind, hw1]
    exact ⟨_, rfl⟩
  obtain ⟨o', hcl⟩ := hcl
  refine ⟨_, o', _, by unfold Mvr.openWrite; rw [setText_plain hp], hcl, ?_⟩
  intro stale garbage
  obtain ⟨hwalk, hget⟩ := hread stale garbage
  have hdata : ((fs.put (folderText p.folders ++ p.name) (some z.data)).fresh ([] :: W)).file p.text = some z.data := by
    rw [fresh_same]
    exact put_same ..
  have hgone : ((fs.put (folderText p.folders ++ p.name) (some z.data)).fresh ([] :: W)).file (folderText W ++ (a ++ '/' :: n)) = none := by
    rw [fresh_same, put_other]
    · exact hno
    · intro h
      exact hout ⟨a ++ '/' :: n, h.symm⟩
  have hsub : ((fs.put (folderText p.folders ++ p.name) (some z.data)).fresh ([] :: W)).dir (folderText (W ++ [a])) = false := by
    have hne' : folderText (W ++ [a]) ≠ folderText W := by
      intro h
      have := congrArg List.length h
      simp [folderText] at this
    unfold Fs.fresh Fs.mkdir
    rw [getFullPath_plain W hW]
    split
    · simp only
      rw [if_neg hne']
      exact hsub0
    · exact hsub0
  simp only [Mvr.new]
  generalize (fs.put (folderText p.folders ++ p.name) (some z.data)).fresh ([] :: W) = fsx at hdata hgone hsub ⊢
  unfold Mvr.openRead
  rw [setText_plain hp]
  simp only
  have hfull : File.fullPath ⟨[] :: p.folders, p.name⟩ = p.text := fullPath_plain _ _ hp.1 hp.2
  have htarget : mvrTarget ([] :: W) (a ++ '/' :: n) = some ⟨[] :: (W ++ [a]), n⟩ := by
    have hdrop : (a ++ '/' :: n).dropWhile (· == '/') = a ++ '/' :: n := by
      rcases a with _ | ⟨c, a⟩
      · exact absurd rfl ha.1
      · exact List.dropWhile_cons_of_neg (by simpa using (ha.2.2 c (List.mem_cons_self ..)).1)
    unfold mvrTarget setFile
    rw [if_neg hane, getFullPath_plain W hW, hdrop, ← htext, setFile_plain (W ++ [a]) n hwa hn]
  have htake1 : Got.take ([] :: W) ⟨fsx, [], none⟩ (enc descName) (some xml) = ⟨fsx, [], some xml⟩ := by
    unfold Got.take
    rw [if_pos rfl]
    rfl
  have htake2 : Got.take ([] :: W) ⟨fsx, [], some xml⟩ (enc (a ++ '/' :: n)) (some d) =
      ⟨fsx, [some ⟨[] :: (W ++ [a]), n⟩], some xml⟩ := by
    have : enc (a ++ '/' :: n) ≠ enc descName := fun h => by
      have h1 : '/' ∈ a ++ '/' :: n := by simp
      rw [enc_inj h] at h1
      exact absurd h1 (by decide)
    unfold Got.take
    rw [if_neg this, dec_enc, htarget]
    simp only [Fs.write, getFullPath_plain (W ++ [a]) hwa, hsub]
    rfl
  rw [hfull, hdata, Option.getD_some, readLoop_walk _ _ _ _ _ hwalk hget, hun, List.map_cons, List.map_cons, List.map_nil, List.foldl_cons,
    List.foldl_cons, List.foldl_nil]
  simp only [htake1, htake2, bind, Except.bind]
  refine ⟨_, _, rfl, rfl, ?_, ?_⟩
  · show File.fullPath ⟨[] :: (W ++ [a]), n⟩ = _
    rw [fullPath_plain (W ++ [a]) n hwa hn, htext]
  · show fsx.file (File.fullPath ⟨[] :: (W ++ [a]), n⟩) = none
    rw [fullPath_plain (W ++ [a]) n hwa hn, htext, hgone]

/-! ## The hypotheses are met -/

/-- Packages below 100 MB fit. -/
theorem fits_small (codec : Codec) (c : Bool) (l : List (List Char × List Byte)) (h1 : l.length < 19280)
    (h2 : ∀ e ∈ l, e.1 ≠ [] ∧ (enc e.1).length ≤ 1024 ∧ e.1.head? ≠ some (Char.ofNat 0))
    (h3 : (l.map (fun e => 76 + 2 * (enc e.1).length + packed codec c e.2)).sum < 100000000) : Fits codec c l := by
  refine ⟨h1, h2, by omega, ?_⟩
  intro k
  have : ∀ (l : List (List Char × List Byte)) (k : Nat), ((l.take k).map (fun e => 30 + (enc e.1).length + packed codec c e.2)).sum ≤
      (l.map (fun e => 76 + 2 * (enc e.1).length + packed codec c e.2)).sum := by
    intro l
    induction l with
    | nil => intro k; simp
    | cons e t ih =>
      intro k
      cases k with
      | zero => simp
      | succ k =>
        have := ih k
        simp only [List.take_succ_cons, List.map_cons, List.sum_cons]
        omega
  have := this l k
  omega

/-- A disk with a texture, a GDTF file and the working folder of an earlier export. -/
def sampleFs : Fs where
  file q := if q = "/in/logo.png".toList then some [1#8, 2#8] else if q = "/in/old/logo.png".toList then some [9#8]
    else if q = "/lib/Spot.gdtf".toList then some [3#8] else none
  dir q := q = "/".toList ∨ q = "/tmp/".toList ∨ q = "/tmp/MVR_Export/".toList ∨ q = "/out/".toList

def samplePlace : Place := ⟨["in".toList], "logo.png".toList⟩

def sampleCalls : List Call :=
  [.folder ["lib".toList], .buffer "b.3ds".toList [4#8, 5#8, 6#8], .file samplePlace, .file ⟨["in".toList, "old".toList], "logo.png".toList⟩]

def sampleW : List (List Char) := ["tmp".toList, "MVR_Export".toList]

def sampleCodec : Codec := ⟨id, some⟩

instance (s : List Char) : Decidable (Plain s) := by unfold Plain; infer_instance

/-- What comes back: the first `logo.png`, the buffer, the GDTF file. -/
example : unused [descName] (given sampleFs sampleCalls ["Spot.gdtf".toList, "Wash.gdtf".toList]) =
    [("logo.png".toList, [1#8, 2#8]), ("b.3ds".toList, [4#8, 5#8, 6#8]), ("Spot.gdtf".toList, [3#8])] := by decide +kernel

theorem sample_usual : ∀ c ∈ sampleCalls, c.Usual := by
  intro c hc
  simp only [sampleCalls, List.mem_cons, List.not_mem_nil, or_false] at hc
  rcases hc with rfl | rfl | rfl | rfl
  · show ∀ q ∈ ["lib".toList], Plain q; decide +kernel
  · show Plain "b.3ds".toList; decide +kernel
  · show (∀ q ∈ ["in".toList], Plain q) ∧ Plain "logo.png".toList; decide +kernel
  · show (∀ q ∈ ["in".toList, "old".toList], Plain q) ∧ Plain "logo.png".toList; decide +kernel

theorem sample_outside : Outside sampleW (Place.text ⟨["out".toList], "scene.mvr".toList⟩) := by
  rintro ⟨r, hr⟩
  have := congrArg (List.take 2) hr
  exact absurd this (by
    show List.take 2 (Place.text ⟨["out".toList], "scene.mvr".toList⟩) ≠ List.take 2 (folderText sampleW ++ r)
    have e : folderText sampleW = "/tmp/MVR_Export/".toList := by decide +kernel
    have e2 : "/tmp/MVR_Export/".toList = '/' :: 't' :: "mp/MVR_Export/".toList := by decide +kernel
    have e3 : Place.text ⟨["out".toList], "scene.mvr".toList⟩ = '/' :: 'o' :: "ut/scene.mvr".toList := by decide +kernel
    rw [e, e2, e3]
    simp)

theorem mvr_sample_fits (xml : List Byte) (hx : xml.length < 1000000) :
    Fits sampleCodec true ((descName, xml) :: unused [descName] (given sampleFs sampleCalls ["Spot.gdtf".toList, "Wash.gdtf".toList])) := by
  have e : unused [descName] (given sampleFs sampleCalls ["Spot.gdtf".toList, "Wash.gdtf".toList]) =
      [("logo.png".toList, [1#8, 2#8]), ("b.3ds".toList, [4#8, 5#8, 6#8]), ("Spot.gdtf".toList, [3#8])] := by decide +kernel
  rw [e]
  refine fits_small _ _ _ (by simp) ?_ ?_
  · intro e he
    have : e.1 ∈ [descName, "logo.png".toList, "b.3ds".toList, "Spot.gdtf".toList] := by
      simp only [List.mem_cons, List.not_mem_nil, or_false] at he ⊢
      rcases he with rfl | rfl | rfl | rfl <;> simp
    generalize e.1 = n at this
    revert n
    decide +kernel
  · have e1 : (enc descName).length = 27 := by decide +kernel
    have e2 : (enc "logo.png".toList).length = 8 := by decide +kernel
    have e3 : (enc "b.3ds".toList).length = 5 := by decide +kernel
    have e4 : (enc "Spot.gdtf".toList).length = 9 := by decide +kernel
    simp only [List.map_cons, List.map_nil, List.sum_cons, List.sum_nil, e1, e2, e3, e4, packed, sampleCodec, if_true, id,
      List.length_cons, List.length_nil]
    omega

theorem sample_fits_alone (xml : List Byte) (hx : xml.length < 1000000) : Fits sampleCodec true [(descName, xml)] := by
  refine fits_small _ _ _ (by simp) ?_ ?_
  · intro e he
    rw [List.mem_singleton] at he
    rw [he]
    show descName ≠ [] ∧ (enc descName).length ≤ 1024 ∧ descName.head? ≠ some (Char.ofNat 0)
    decide +kernel
  · have e1 : (enc descName).length = 27 := by decide +kernel
    simp only [List.map_cons, List.map_nil, List.sum_cons, List.sum_nil, e1, packed, sampleCodec, if_true, id]
    omega

/-- C77: the hypotheses are met by a package with a file, a buffer, a GDTF file, one that is missing and a name that is used twice. -/
example (stamps : Nat → Stamp) (xml : List Byte) (hx : xml.length < 1000000) :=
  C77_round_trip_partial (codec := sampleCodec) (fun _ => rfl) 8 stamps sampleW (by decide +kernel) (by decide +kernel) sampleFs
    (by decide +kernel) sampleCalls sample_usual ["Spot.gdtf".toList, "Wash.gdtf".toList] (by decide +kernel) (by unfold OneCase; decide +kernel)
    ⟨["out".toList], "scene.mvr".toList⟩ ⟨by decide +kernel, by decide +kernel⟩ (by decide +kernel) sample_outside xml
    (mvr_sample_fits xml hx)
    (by decide)

/-- C77: a vanished file, and names that differ only in case. -/
example : Place.Usual samplePlace ∧ sampleFs.file samplePlace.text = some [1#8, 2#8] ∧ ({ sampleFs with file := fun _ => none } : Fs).file samplePlace.text = none ∧
    eqNoCase "Spot.gdtf".toList "SPOT.gdtf".toList = true := by
  refine ⟨⟨by decide +kernel, by decide +kernel⟩, by decide +kernel, rfl, by decide +kernel⟩

/-- C77: the working folder of the sample exists. -/
example : sampleFs.dir (folderText sampleW) = true ∧ (∀ q ∈ sampleW, Plain q) := by decide +kernel

end Verif.Pack
