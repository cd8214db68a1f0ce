import Verif.Zip.Props
import Verif.Path.Props
import Verif.Pack.Spec

/-!
# Lemmas about packages
-/

namespace Verif.Pack

open Verif.Zip Verif.Zip.Spec Verif.Path Verif.Path.Spec Verif.Str Spec

/-! ## Identifiers -/

theorem setFile_plain (L : List (List Char)) (n : List Char) (hL : ∀ p ∈ L, Plain p) (hn : Plain n) :
    setFileFullPath (folderText L ++ n) = some ⟨[] :: L, n⟩ := by
  have := file_below L hL [] n (plain_no_slash hn) (Or.inl rfl)
  rw [List.nil_append] at this
  rw [this]
  have hv : validate (replace [':'] ['/'] n) = n := plain_keep hn
  rw [hv]
  rfl

theorem fullPath_plain (L : List (List Char)) (n : List Char) (hL : ∀ p ∈ L, Plain p) (hn : Plain n) :
    File.fullPath ⟨[] :: L, n⟩ = folderText L ++ n := by
  unfold File.fullPath
  simp only
  rw [getFullPath_plain L hL, plain_convert hn]

theorem setText_plain {p : Place} (h : p.Usual) : setText p.text = some ⟨[] :: p.folders, p.name⟩ := by
  unfold setText Place.text
  rw [if_neg (by simp [folderText]), setFile_plain _ _ h.1 h.2]

theorem dropWhile_plain {n : List Char} (hn : Plain n) : n.dropWhile (· == '/') = n := by
  rcases n with _ | ⟨c, n⟩
  · rfl
  · exact List.dropWhile_cons_of_neg (by simpa using (hn.2.2 c (List.mem_cons_self ..)).1)

theorem setFile_in (L : List (List Char)) (n : List Char) (hL : ∀ p ∈ L, Plain p) (hn : Plain n) :
    setFile ([] :: L) n = some ⟨[] :: L, n⟩ := by
  unfold setFile
  rw [if_neg hn.1, getFullPath_plain L hL, dropWhile_plain hn, setFile_plain L n hL hn]

theorem setFolder_plain (L : List (List Char)) (hL : ∀ p ∈ L, Plain p) : setFullPath (folderText L) = [] :: L := by
  have e : folderText L = '/' :: L.flatMap (· ++ ['/']) := rfl
  rw [e, setFullPath_slash, ← e, resolve_folder L hL, show (['/'] : List Char) = [] ++ '/' :: [] from rfl,
    kept_cons _ _ (by simp), if_pos rfl]
  simp [kept, pieces, resolve]

/-! ## Writing -/

theorem perform_eq (fs : Fs) (calls : List Call) (hc : ∀ c ∈ calls, c.Usual) : ∀ o : Mvr,
    let r := perform fs o calls
    r.path = o.path ∧ r.write = o.write ∧ r.read = o.read ∧ r.needed = o.needed ∧ r.attached = o.attached ∧ r.desc = o.desc ∧
    r.files.filterMap (fun f => fileEntry fs (some f)) = o.files.filterMap (fun f => fileEntry fs (some f)) ++ files fs calls ∧
    r.buffers = o.buffers ++ buffers calls ∧
    r.folders = o.folders ++ (folders calls).map ([] :: ·) := by
  induction calls with
  | nil => intro o; simp [perform, files, buffers, folders]
  | cons c t ih =>
    intro o
    have ih := ih (fun c h => hc c (by simp [h]))
    have h := hc c (by simp)
    cases c with
    | file p =>
      have hp : p.Usual := h
      have e : (o.addFile fs p.text).2 = if (fs.file p.text).isSome then { o with files := o.files ++ [⟨[] :: p.folders, p.name⟩] }
          else o := by
        unfold Mvr.addFile
        rw [setText_plain hp]
        have : fs.content (some ⟨[] :: p.folders, p.name⟩) = fs.file p.text := by
          unfold Fs.content
          rw [Option.bind_some, fullPath_plain _ _ hp.1 hp.2]
          rfl
        simp only [this]
        split <;> rfl
      have := ih (o.addFile fs p.text).2
      rw [perform]
      simp only at this ⊢
      rw [e] at this ⊢
      cases hf : fs.file p.text with
      | none =>
        rw [hf] at this
        simp only [Option.isSome_none, Bool.false_eq_true, if_false] at this ⊢
        obtain ⟨h1, h2, h3, h4, h5, h6, h7, h8, h9⟩ := this
        refine ⟨h1, h2, h3, h4, h5, h6, ?_, ?_, ?_⟩
        · rw [h7]; simp [files, hf]
        · rw [h8]; simp [buffers]
        · rw [h9]; simp [folders]
      | some d =>
        rw [hf] at this
        simp only [Option.isSome_some, if_true] at this ⊢
        obtain ⟨h1, h2, h3, h4, h5, h6, h7, h8, h9⟩ := this
        refine ⟨h1, h2, h3, h4, h5, h6, ?_, ?_, ?_⟩
        · rw [h7, List.filterMap_append]
          have : fileEntry fs (some ⟨[] :: p.folders, p.name⟩) = some (p.name, d) := by
            unfold fileEntry
            rw [Option.bind_some, fullPath_plain _ _ hp.1 hp.2]
            have : fs.file (folderText p.folders ++ p.name) = some d := hf
            rw [this]; rfl
          simp [files, hf, this]
        · rw [h8]; simp [buffers]
        · rw [h9]; simp [folders]
    | buffer n d =>
      have hp : Plain n := h
      have e : (o.addBuffer n (some d)).2 = if d = [] then o else { o with buffers := o.buffers ++ [(n, d)] } := by
        unfold Mvr.addBuffer
        rw [if_neg hp.1]
        simp only [List.length_eq_zero_iff]
        split <;> rfl
      have := ih (o.addBuffer n (some d)).2
      rw [perform]
      simp only at this ⊢
      rw [e] at this ⊢
      by_cases hd : d = []
      · rw [if_pos hd] at this ⊢
        obtain ⟨h1, h2, h3, h4, h5, h6, h7, h8, h9⟩ := this
        refine ⟨h1, h2, h3, h4, h5, h6, ?_, ?_, ?_⟩
        · rw [h7]; simp [files]
        · rw [h8]; simp [buffers, hd]
        · rw [h9]; simp [folders]
      · rw [if_neg hd] at this ⊢
        obtain ⟨h1, h2, h3, h4, h5, h6, h7, h8, h9⟩ := this
        refine ⟨h1, h2, h3, h4, h5, h6, ?_, ?_, ?_⟩
        · rw [h7]; simp [files]
        · rw [h8]; simp [buffers, hd]
        · rw [h9]; simp [folders]
    | folder l =>
      have hp : ∀ q ∈ l, Plain q := h
      have e : (o.addFolder (folderText l)).2 = { o with folders := o.folders ++ [[] :: l] } := by
        unfold Mvr.addFolder
        rw [setFolder_plain l hp]
      have := ih (o.addFolder (folderText l)).2
      rw [perform]
      simp only at this ⊢
      rw [e] at this ⊢
      obtain ⟨h1, h2, h3, h4, h5, h6, h7, h8, h9⟩ := this
      refine ⟨h1, h2, h3, h4, h5, h6, ?_, ?_, ?_⟩
      · rw [h7]; simp [files]
      · rw [h8]; simp [buffers]
      · rw [h9]; simp [folders]

theorem locate_eq (fs : Fs) (ls : List (List (List Char))) (hl : ∀ l ∈ ls, ∀ q ∈ l, Plain q) (n : List Char) (hn : Plain n) :
    locate fs (ls.map ([] :: ·)) n = ls.findSome? (fun l => (fs.file (folderText l ++ n)).map (fun d => (n, d))) := by
  induction ls with
  | nil => rfl
  | cons l t ih =>
    have e : fileEntry fs (setFile ([] :: l) n) = (fs.file (folderText l ++ n)).map (fun d => (n, d)) := by
      rw [setFile_in l n (hl l (by simp)) hn]
      unfold fileEntry
      rw [Option.bind_some, fullPath_plain l n (hl l (by simp)) hn]
    have ih := ih (fun l h => hl l (by simp [h]))
    unfold locate at ih ⊢
    rw [List.map_cons, List.findSome?_cons, List.findSome?_cons, e, ih]

/-- The names that are added to the list of needed files: without repetitions. -/
theorem addNeeded_foldl (names : List (List Char)) : ∀ start : List (List Char), OneCase (start ++ names) →
    ∃ rest, names.foldl addNeeded start = start ++ rest ∧ ((∀ n, n ∈ rest → n ∈ names) ∧ rest.length ≤ names.length) ∧
      ∀ (f : List Char → Option (List Char × List Byte)), (∀ n e, f n = some e → e.1 = n) → ∀ used,
        (∀ n ∈ start, ∀ e, f n = some e → n ∈ used) →
        unused used (rest.filterMap f) = unused used (names.filterMap f) := by
  induction names with
  | nil => intro start _; exact ⟨[], by simp, by simp, by simp⟩
  | cons n t ih =>
    intro start h
    rw [List.foldl_cons]
    by_cases hn : n ∈ start
    · have e : addNeeded start n = start := by
        unfold addNeeded
        rw [if_pos (List.any_eq_true.2 ⟨n, hn, by simp [eqNoCase]⟩)]
      rw [e]
      have hsub : ∀ a, a ∈ start ++ t → a ∈ start ++ n :: t := by
        intro a ha
        rcases List.mem_append.1 ha with ha | ha <;> simp [ha]
      obtain ⟨rest, h1, h2, h3⟩ := ih start (fun a ha b hb => h a (hsub a ha) b (hsub b hb))
      refine ⟨rest, h1, ⟨fun m hm => by simp [h2.1 m hm], by have := h2.2; simp; omega⟩, ?_⟩
      intro f hf used hu
      rw [h3 f hf used hu, List.filterMap_cons]
      cases hfn : f n with
      | none => rfl
      | some e =>
        have : e.1 ∈ used := by rw [hf n e hfn]; exact hu n hn e hfn
        simp only
        rw [unused, if_pos this]
    · have e : addNeeded start n = start ++ [n] := by
        unfold addNeeded
        rw [if_neg]
        intro ha
        obtain ⟨m, hm, he⟩ := List.any_eq_true.1 ha
        rw [h m (by simp [hm]) n (by simp) he] at hm
        exact hn hm
      rw [e]
      obtain ⟨rest, h1, h2, h3⟩ := ih (start ++ [n]) (by simpa using h)
      refine ⟨n :: rest, by simp [h1], ⟨?_, by have := h2.2; simp; omega⟩, ?_⟩
      · intro m hm
        rcases List.mem_cons.1 hm with rfl | hm
        · simp
        · simp [h2.1 m hm]
      · intro f hf used hu
        rw [List.filterMap_cons, List.filterMap_cons]
        cases hfn : f n with
        | none =>
          refine h3 f hf used ?_
          intro m hm e he
          rcases List.mem_append.1 hm with hm | hm
          · exact hu m hm e he
          · rw [List.mem_singleton.1 hm, hfn] at he
            exact absurd he (by simp)
        | some e =>
          simp only
          have he := hf n e hfn
          rw [unused, unused, he]
          by_cases hused : n ∈ used
          · rw [if_pos hused, if_pos hused]
            refine h3 f hf used ?_
            intro m hm e' he'
            rcases List.mem_append.1 hm with hm | hm
            · exact hu m hm e' he'
            · rw [List.mem_singleton.1 hm]; exact hused
          · rw [if_neg hused, if_neg hused]
            congr 1
            refine h3 f hf (used ++ [n]) ?_
            intro m hm e' he'
            rcases List.mem_append.1 hm with hm | hm
            · exact List.mem_append_left _ (hu m hm e' he')
            · exact List.mem_append_right _ hm

theorem unused_append_congr (a b b' : List (List Char × List Byte)) (h : ∀ used, unused used b = unused used b') :
    ∀ used, unused used (a ++ b) = unused used (a ++ b') := by
  induction a with
  | nil => exact h
  | cons e t ih =>
    intro used
    rw [List.cons_append, List.cons_append, unused, unused]
    split
    · exact ih used
    · rw [ih]

theorem unused_sub (l : List (List Char × List Byte)) : ∀ used e, e ∈ unused used l → e ∈ l ∧ e.1 ∉ used := by
  induction l with
  | nil => intro used e h; simp [unused] at h
  | cons x t ih =>
    intro used e h
    rw [unused] at h
    split at h
    · obtain ⟨h1, h2⟩ := ih used e h
      exact ⟨by simp [h1], h2⟩
    · rename_i hx
      rcases List.mem_cons.1 h with rfl | h
      · exact ⟨by simp, hx⟩
      · obtain ⟨h1, h2⟩ := ih _ e h
        exact ⟨by simp [h1], fun hu => h2 (List.mem_append_left _ hu)⟩

theorem unused_nodup (l : List (List Char × List Byte)) : ∀ used, (unused used l).Pairwise (fun a b => a.1 ≠ b.1) := by
  induction l with
  | nil => intro used; exact List.Pairwise.nil
  | cons x t ih =>
    intro used
    rw [unused]
    split
    · exact ih used
    · refine List.pairwise_cons.2 ⟨?_, ih _⟩
      intro e he hxe
      exact (unused_sub t _ e he).2 (by simp [hxe])

theorem unused_self (l : List (List Char × List Byte)) : ∀ used, l.Pairwise (fun a b => a.1 ≠ b.1) → (∀ e ∈ l, e.1 ∉ used) →
    unused used l = l := by
  induction l with
  | nil => intro used _ _; rfl
  | cons x t ih =>
    intro used h hu
    rw [unused, if_neg (hu x (by simp))]
    congr 1
    refine ih _ (List.pairwise_cons.1 h).2 ?_
    intro e he
    simp only [List.mem_append, List.mem_singleton, not_or]
    exact ⟨hu e (by simp [he]), fun hx => (List.pairwise_cons.1 h).1 e he hx.symm⟩

/-! ## The archive -/

theorem addEntries_eq {codec : Codec} {fuel : Nat} (as : List Add) : ∀ z es z', addAll codec fuel z as = .ok (es, z') →
    addEntries codec fuel z as = .ok z' := by
  induction as with
  | nil =>
    intro z es z' h
    rw [addAll] at h
    rw [Except.ok.injEq, Prod.mk.injEq] at h
    rw [addEntries, h.2]
  | cons a t ih =>
    intro z es z' h
    rw [addAll] at h
    rw [addEntries]
    cases ha : addFile codec fuel z a with
    | error e => rw [ha] at h; exact absurd h (by simp [bind, Except.bind])
    | ok r =>
      rw [ha] at h
      simp only [bind, Except.bind] at h ⊢
      cases hb : addAll codec fuel r.2 t with
      | error e => rw [hb] at h; exact absurd h (by simp)
      | ok r' =>
        rw [hb] at h
        simp only [Except.ok.injEq, Prod.mk.injEq] at h
        refine ih r.2 r'.1 z' ?_
        rw [hb, ← h.2]

theorem stampAll_length (stamps : Nat → Stamp) (es : List (List Char × List Byte)) : ∀ k, (stampAll stamps k es).length = es.length := by
  induction es with
  | nil => intro k; rfl
  | cons e t ih => intro k; rw [stampAll, List.length_cons, ih, List.length_cons]

theorem entryName_enc (s : List Char) (h : '\\' ∉ s) : entryName (enc s) = enc s := by
  have := enc_no_backslash s h
  unfold entryName
  have e : (enc s).map (fun b => if b = 0x5C#8 then 0x2F#8 else b) = (enc s).map id :=
    List.map_congr_left (fun b hb => if_neg (fun he : b = 0x5C#8 => this (he ▸ hb)))
  rw [e, List.map_id]

theorem firsts_stamp (stamps : Nat → Stamp) (es : List (List Char × List Byte)) (hb : ∀ e ∈ es, '\\' ∉ e.1) :
    ∀ k kept used, kept.map (fun a => entryName a.path) = used.map enc →
    (firsts kept (stampAll stamps k es)).map (fun a => (a.path, a.content)) =
      kept.map (fun a => (a.path, a.content)) ++ (unused used es).map (fun e => (enc e.1, e.2)) := by
  induction es with
  | nil => intro k kept used _; simp [stampAll, firsts, unused]
  | cons e t ih =>
    intro k kept used h
    have ih := ih (fun e he => hb e (by simp [he]))
    rw [stampAll, firsts, unused]
    simp only
    rw [entryName_enc _ (hb e (by simp)), h]
    by_cases hu : e.1 ∈ used
    · rw [if_pos (List.mem_map.2 ⟨e.1, hu, rfl⟩), if_pos hu]
      exact ih _ _ _ h
    · rw [if_neg (fun hm => by
        obtain ⟨x, hx, he⟩ := List.mem_map.1 hm
        rw [enc_inj he] at hx
        exact hu hx), if_neg hu]
      rw [ih (k + 1) _ (used ++ [e.1]) (by simp [h, entryName_enc _ (hb e (by simp))])]
      simp

theorem enc_head (s : List Char) (hne : s ≠ []) (h : s.head? ≠ some (Char.ofNat 0)) : enc s ≠ [] ∧ (enc s).headD 0#8 ≠ 0#8 := by
  rcases s with _ | ⟨c, t⟩
  · exact absurd rfl hne
  have hc := char_le c
  have h0 : c.toNat ≠ 0 := by
    intro e
    refine h ?_
    rw [List.head?_cons, ← Char.ofNat_toNat c, e]
  have hz : ∀ n, 0 < n → n < 256 → BitVec.ofNat 8 n ≠ 0#8 := by
    intro n h1 h2 e
    have := congrArg BitVec.toNat e
    rw [byte_ofNat n h2] at this
    simp at this
    omega
  have e : enc (c :: t) = Verif.UnicodeSpec.utf8 c.toNat ++ enc t := rfl
  rw [e]
  unfold Verif.UnicodeSpec.utf8
  split
  · exact ⟨by simp, by simpa using hz _ (by omega) (by omega)⟩
  · split
    · exact ⟨by simp, by simpa using hz _ (by omega) (by omega)⟩
    · split
      · exact ⟨by simp, by simpa using hz _ (by omega) (by omega)⟩
      · exact ⟨by simp, by simpa using hz _ (by omega) (by omega)⟩

theorem Spec.Fits.limits {codec : Codec} {c : Bool} {l : List (List Char × List Byte)} (h : Fits codec c l) (as : List Add)
    (ha : as.map (fun a => (a.path, a.content)) = l.map (fun e => (enc e.1, e.2))) : InLimits codec c as := by
  have hlen : as.length = l.length := by simpa using congrArg List.length ha
  have hmap : ∀ (k : Nat) (f : List Byte → Nat → Nat), (as.take k).map (fun a => f a.path (storedLength codec c a)) =
      (l.take k).map (fun e => f (enc e.1) (packed codec c e.2)) := by
    intro k f
    have e1 : (as.take k).map (fun a => f a.path (storedLength codec c a)) =
        ((as.map (fun a => (a.path, a.content))).take k).map (fun p => f p.1 (packed codec c p.2)) := by
      rw [← List.map_take, List.map_map]
      refine List.map_congr_left (fun a _ => ?_)
      cases c <;> rfl
    rw [e1, ha, ← List.map_take, List.map_map]
    rfl
  refine ⟨by rw [hlen]; exact h.entries, ?_, ?_, ?_⟩
  · intro a hm
    have : (a.path, a.content) ∈ l.map (fun e => (enc e.1, e.2)) := by
      rw [← ha]; exact List.mem_map.2 ⟨a, hm, rfl⟩
    obtain ⟨e, he, hp⟩ := List.mem_map.1 this
    have hp1 : enc e.1 = a.path := (Prod.ext_iff.1 hp).1
    obtain ⟨h1, h2, h3⟩ := h.names e he
    rw [← hp1]
    exact ⟨(enc_head _ h1 h3).1, h2, (enc_head _ h1 h3).2⟩
  · have := hmap as.length (fun p n => 76 + 2 * p.length + n)
    rw [List.take_length, List.take_of_length_le (by omega)] at this
    rw [this]
    exact h.size
  · intro k
    rw [hmap k (fun p n => 30 + p.length + n)]
    exact h.notEnd k

/-! ## Reading -/

theorem readLoop_walk {codec : Codec} {fuel : Nat} {stale : Byte} {garbage : FileInfo} {working : List (List Char)} {data : List Byte}
    (l : List (List Byte × List Byte)) : ∀ rounds path g e, walk fuel data stale rounds path = .ok (l.map Prod.fst, e) →
    (∀ p ∈ l, getFile codec fuel data garbage p.1 = .ok (.noError, some p.2)) →
    readLoop codec fuel stale garbage working data rounds path g = .ok (l.foldl (fun g p => g.take working p.1 (some p.2)) g) := by
  induction l with
  | nil =>
    intro rounds path g e h _
    cases rounds with
    | zero => exact absurd h (by simp [walk])
    | succ r =>
      rw [walk] at h
      rw [readLoop]
      cases hn : getNextFile fuel data stale path with
      | error x => rw [hn] at h; exact absurd h (by simp [bind, Except.bind])
      | ok x =>
        rw [hn] at h
        simp only [bind, Except.bind] at h ⊢
        by_cases hx : x.1 = .noError
        · rw [if_pos hx] at h
          cases hw : walk fuel data stale r x.2 with
          | error y => rw [hw] at h; exact absurd h (by simp)
          | ok y => rw [hw] at h; exact absurd h (by simp)
        · rw [if_neg hx]; rfl
  | cons p t ih =>
    intro rounds path g e h hg
    cases rounds with
    | zero => exact absurd h (by simp [walk])
    | succ r =>
      rw [walk] at h
      rw [readLoop]
      cases hn : getNextFile fuel data stale path with
      | error x => rw [hn] at h; exact absurd h (by simp [bind, Except.bind])
      | ok x =>
        rw [hn] at h
        simp only [bind, Except.bind] at h ⊢
        by_cases hx : x.1 = .noError
        · rw [if_pos hx] at h ⊢
          cases hw : walk fuel data stale r x.2 with
          | error y => rw [hw] at h; exact absurd h (by simp)
          | ok y =>
            rw [hw] at h
            simp only [Except.ok.injEq, Prod.mk.injEq, List.map_cons, List.cons.injEq] at h
            obtain ⟨⟨h1, h2⟩, h3⟩ := h
            rw [h1, hg p (by simp)]
            simp only
            rw [List.foldl_cons]
            refine ih r p.1 _ y.2 ?_ (fun q hq => hg q (by simp [hq]))
            rw [← h1, hw, ← h2]
        · rw [if_neg hx] at h
          exact absurd h (by simp)

/-- What is read from a package that has just been made: the entries with names that have not been used before. -/
theorem pack_read {codec : Codec} {c : Bool} (hcodec : c = true → Lossless codec) (fuel : Nat) (stamps : Nat → Stamp)
    (es : List (List Char × List Byte)) (hb : ∀ e ∈ es, '\\' ∉ e.1) (h : Fits codec c (unused [] es)) (hf : es.length + 1 ≤ fuel) :
    ∃ z, addEntries codec fuel (openNewWrite c) (stampAll stamps 0 es) = .ok z ∧
      ∃ e, ∀ stale garbage, walk fuel z.data stale fuel [] = .ok (((unused [] es).map (fun e => (enc e.1, e.2))).map Prod.fst, e) ∧
      ∀ p ∈ (unused [] es).map (fun e => (enc e.1, e.2)), getFile codec fuel z.data garbage p.1 = .ok (.noError, some p.2) := by
  have hs := firsts_stamp stamps es hb 0 [] [] rfl
  rw [List.map_nil, List.nil_append] at hs
  have hlim := h.limits _ hs
  have hlen := stampAll_length stamps es 0
  have hname : ∀ a ∈ firsts [] (stampAll stamps 0 es), entryName a.path = a.path := by
    intro a ha
    have : (a.path, a.content) ∈ (unused [] es).map (fun e => (enc e.1, e.2)) := by
      rw [← hs]; exact List.mem_map.2 ⟨a, ha, rfl⟩
    obtain ⟨e, he, hp⟩ := List.mem_map.1 this
    have hp1 : enc e.1 = a.path := (Prod.ext_iff.1 hp).1
    rw [← hp1, entryName_enc _ (hb e (unused_sub es _ e he).1)]
  obtain ⟨z, hz, hw⟩ := C04_listing fuel (stampAll stamps 0 es) hlim (by omega) 0#8 fuel (by omega)
  have hw : ∀ stale, walk fuel z.data stale fuel [] = .ok ((firsts [] (stampAll stamps 0 es)).map (fun a => entryName a.path),
      if stampAll stamps 0 es = [] then .failed else .false_) := by
    intro stale
    obtain ⟨z', hz', hw'⟩ := C04_listing fuel (stampAll stamps 0 es) hlim (by omega) stale fuel (by omega)
    rw [hz, Except.ok.injEq, Prod.mk.injEq] at hz'
    rw [hz'.2]
    exact hw'
  have hg : ∀ a ∈ firsts [] (stampAll stamps 0 es), ∀ garbage,
      getFile codec fuel z.data garbage (entryName a.path) = .ok (.noError, some a.content) := by
    cases c with
    | true =>
      obtain ⟨z', hz', hg'⟩ := C03_add_then_read (hcodec rfl) fuel (stampAll stamps 0 es) hlim (by omega)
      rw [hz, Except.ok.injEq, Prod.mk.injEq] at hz'
      rw [hz'.2]
      exact fun a ha garbage => (hg' a ha garbage).1
    | false =>
      obtain ⟨z', hz', hg'⟩ := C03_add_then_read_stored fuel (stampAll stamps 0 es) hlim (by omega)
      rw [hz, Except.ok.injEq, Prod.mk.injEq] at hz'
      rw [hz'.2]
      exact hg'
  refine ⟨z, addEntries_eq _ _ _ _ hz, (if stampAll stamps 0 es = [] then .failed else .false_), fun stale garbage => ⟨?_, ?_⟩⟩
  · rw [hw stale, ← hs, List.map_map]
    congr 2
    exact List.map_congr_left (fun a ha => hname a ha)
  · intro p hp
    rw [← hs] at hp
    obtain ⟨a, ha, rfl⟩ := List.mem_map.1 hp
    simp only
    rw [← hname a ha]
    exact hg a ha garbage

/-! ## The disk -/

theorem put_same (fs : Fs) (p : List Char) (v : Option (List Byte)) : (fs.put p v).file p = v := by simp [Fs.put]

theorem put_other (fs : Fs) (p q : List Char) (v : Option (List Byte)) (h : q ≠ p) : (fs.put p v).file q = fs.file q := by
  simp [Fs.put, h]

theorem write_dir (fs : Fs) (f : Option File) (data : List Byte) : (fs.write f data).dir = fs.dir := by
  unfold Fs.write
  split
  · split <;> rfl
  · rfl

theorem write_plain (fs : Fs) (W : List (List Char)) (n : List Char) (hW : ∀ p ∈ W, Plain p) (hn : Plain n)
    (hd : fs.dir (folderText W) = true) (data : List Byte) :
    fs.write (some ⟨[] :: W, n⟩) data = fs.put (folderText W ++ n) (some data) := by
  unfold Fs.write
  simp only
  rw [getFullPath_plain W hW, if_pos hd, fullPath_plain W n hW hn]

theorem remove_plain (fs : Fs) (W : List (List Char)) (n : List Char) (hW : ∀ p ∈ W, Plain p) (hn : Plain n) :
    fs.remove (some ⟨[] :: W, n⟩) = fs.put (folderText W ++ n) none := by
  unfold Fs.remove
  simp only
  rw [fullPath_plain W n hW hn]

theorem isPrefixOf_iff (a b : List Char) : a.isPrefixOf b = true ↔ ∃ rest, b = a ++ rest := by
  rw [List.isPrefixOf_iff_prefix]
  exact ⟨fun ⟨r, h⟩ => ⟨r, h.symm⟩, fun ⟨r, h⟩ => ⟨r, h.symm⟩⟩

/-- Making the working folder changes no file. -/
theorem fresh_same (fs : Fs) (h : List (List Char)) : (fs.fresh h).file = fs.file := by
  unfold Fs.fresh Fs.mkdir
  split <;> rfl

theorem folderText_dropLast (W : List (List Char)) (hW : ∀ p ∈ W, Plain p) (hne : W ≠ []) :
    getFullPath ([] :: W).dropLast = folderText W.dropLast := by
  rcases W with _ | ⟨a, t⟩
  · exact absurd rfl hne
  · rw [List.dropLast_cons_of_ne_nil (by simp), getFullPath_plain _ (fun p hp => hW p ((List.dropLast_sublist _).subset hp))]

theorem folderText_dropLast_prefix (W : List (List Char)) (hne : W ≠ []) : (folderText W.dropLast).length < (folderText W).length := by
  obtain ⟨V, x, rfl⟩ := List.eq_nil_or_concat W |>.resolve_left hne
  simp [folderText]

theorem fresh_dir (fs : Fs) (W : List (List Char)) (hW : ∀ p ∈ W, Plain p) (hne : W ≠ [])
    (hup : fs.dir (folderText W.dropLast) = true) : (fs.fresh ([] :: W)).dir (folderText W) = true := by
  unfold Fs.fresh Fs.mkdir
  rw [folderText_dropLast W hW hne, getFullPath_plain W hW, if_pos hup]
  simp

/-- Taking the entries with usual names: they are listed in order and written into the working folder. -/
theorem take_fold (W : List (List Char)) (hW : ∀ p ∈ W, Plain p) (l : List (List Char × List Byte))
    (hl : ∀ e ∈ l, Plain e.1) (hd : ∀ e ∈ l, e.1 ≠ descName) (hn : l.Pairwise (fun a b => a.1 ≠ b.1)) :
    ∀ g : Got, g.fs.dir (folderText W) = true →
    let r := (l.map (fun e => (enc e.1, e.2))).foldl (fun g p => g.take ([] :: W) p.1 (some p.2)) g
    r.attached = g.attached ++ l.map (fun e => some ⟨[] :: W, e.1⟩) ∧ r.desc = g.desc ∧
    (∀ e ∈ l, r.fs.file (folderText W ++ e.1) = some e.2) ∧
    (∀ q, (∀ e ∈ l, q ≠ folderText W ++ e.1) → r.fs.file q = g.fs.file q) ∧ r.fs.dir = g.fs.dir := by
  induction l with
  | nil => intro g _; simp
  | cons x t ih =>
    intro g hg
    have hx := hl x (by simp)
    have e : g.take ([] :: W) (enc x.1) (some x.2) =
        { g with fs := g.fs.put (folderText W ++ x.1) (some x.2), attached := g.attached ++ [some ⟨[] :: W, x.1⟩] } := by
      unfold Got.take
      rw [if_neg (fun h => hd x (by simp) (enc_inj h)), dec_enc]
      unfold mvrTarget
      rw [setFile_in W x.1 hW hx]
      simp only [Option.getD_some]
      rw [write_plain g.fs W x.1 hW hx hg]
    rw [List.map_cons, List.foldl_cons]
    simp only
    rw [e]
    have := ih (fun e he => hl e (by simp [he])) (fun e he => hd e (by simp [he])) (List.pairwise_cons.1 hn).2
      { g with fs := g.fs.put (folderText W ++ x.1) (some x.2), attached := g.attached ++ [some ⟨[] :: W, x.1⟩] } hg
    simp only at this
    obtain ⟨h1, h2, h3, h4, h5⟩ := this
    refine ⟨by rw [h1]; simp, h2, ?_, ?_, h5⟩
    · intro e' he'
      rcases List.mem_cons.1 he' with rfl | he'
      · rw [h4 _ (fun y hy hxy => (List.pairwise_cons.1 hn).1 y hy (List.append_cancel_left hxy))]
        exact put_same ..
      · exact h3 e' he'
    · intro q hq
      rw [h4 q (fun y hy => hq y (by simp [hy]))]
      exact put_other _ _ _ _ (hq x (by simp))

end Verif.Pack
