import Verif.Pack.GdtfSpec
import Verif.Pack.Lemmas

/-!
# Lemmas for GDTF packages
-/

namespace Verif.Pack

open Verif.Zip Verif.Zip.Spec Verif.Path Verif.Path.Spec Verif.Str Spec

/-! ## Names and places -/

theorem entryText_eq (res : Res) (n : List Char) (d : List Byte) : entryText res n = (Item.mk res n d).entry := by
  unfold entryText Item.entry
  cases res <;> rfl

theorem location_plain (res : Res) : ∀ q ∈ location res, Plain q ∧ '\\' ∉ q := by
  have h : ∀ q, q ∈ ["wheels".toList, "models".toList, "3ds".toList, "3ds_low".toList, "3ds_high".toList, "svg".toList,
      "svg_side".toList, "svg_front".toList, "gltf".toList, "gltf_low".toList, "gltf_high".toList] → Plain q ∧ '\\' ∉ q := by
    unfold Plain
    decide +kernel
  intro q hq
  refine h q ?_
  cases res <;> simp only [location, List.mem_cons, List.not_mem_nil, or_false] at hq <;> (try rcases hq with rfl | rfl) <;>
    (try subst hq) <;> (try simp)

theorem flat_plain (i : Item) : ∀ q ∈ i.folder, Plain q := by
  have h : ∀ q, q ∈ ["wheels".toList, "models3ds".toList, "models3ds_low".toList, "models3ds_high".toList, "modelssvg".toList,
      "modelssvg_side".toList, "modelssvg_front".toList, "modelsgltf".toList, "modelsgltf_low".toList, "modelsgltf_high".toList] →
      Plain q := by
    unfold Plain
    decide +kernel
  intro q hq
  refine h q ?_
  unfold Item.folder at hq
  cases hr : i.res <;> rw [hr] at hq <;> simp [location] at hq <;> subst hq <;> simp

theorem extract_item (i : Item) (hn : Plain i.name) :
    extractFolder [] (replace ['\\'] ['/'] i.entry) = ((location i.res).flatMap (· ++ ['/']), i.name) := by
  have hb : '\\' ∉ i.entry := by
    unfold Item.entry
    intro h
    rcases List.mem_append.1 h with h | h
    · obtain ⟨q, hq, h⟩ := List.mem_flatMap.1 h
      rcases List.mem_append.1 h with h | h
      · exact (location_plain _ q hq).2 h
      · exact absurd (List.mem_singleton.1 h) (by decide)
    · exact (hn.2.2 _ h).2.1 rfl
  rw [replace_absent _ _ _ '\\' (by simp) hb]
  unfold Item.entry
  have key : ∀ (L : List (List Char)) (acc : List Char), (∀ q ∈ L, Plain q ∧ '\\' ∉ q) →
      extractFolder acc (L.flatMap (· ++ ['/']) ++ i.name) = (acc ++ L.flatMap (· ++ ['/']), i.name) := by
    intro L
    induction L with
    | nil => intro acc _; rw [List.flatMap_nil, List.nil_append, extract_none _ _ (plain_no_slash hn), List.append_nil]
    | cons q t ih =>
      intro acc h
      have hq := (h q (by simp)).1
      rw [List.flatMap_cons, List.append_assoc, List.append_assoc, List.singleton_append, extract_one _ _ _ hq.1 (plain_no_slash hq),
        ih _ (fun q hq => h q (by simp [hq]))]
      simp
  rw [key _ _ (location_plain _)]
  rfl

theorem folder_item (W : List (List Char)) (hW : ∀ p ∈ W, Plain p) (i : Item) (hn : Plain i.name) :
    gdtfFolder ([] :: W) i.entry = some ([] :: (W ++ i.folder)) := by
  unfold gdtfFolder
  rw [extract_item i hn]
  simp only
  rw [replace_remove, filter_parts _ (fun p hp => plain_no_slash (location_plain _ p hp).1),
    gdtf_folder W hW _ (by
      intro h
      obtain ⟨q, hq, h⟩ := List.mem_flatten.1 h
      exact plain_no_slash (location_plain _ q hq).1 h)]
  have hf := flat_plain i
  unfold Item.folder at hf ⊢
  by_cases hl : location i.res = []
  · rw [if_pos hl, hl]
    simp [resolve]
  · rw [if_neg hl] at hf ⊢
    have hp := hf _ (List.mem_singleton_self _)
    rw [if_neg hp.1, plain_keep hp, resolve_plain _ (by simpa using hp.2.1)]
    rfl

theorem item_folder_plain (W : List (List Char)) (hW : ∀ p ∈ W, Plain p) (i : Item) : ∀ q ∈ W ++ i.folder, Plain q :=
  fun q hq => (List.mem_append.1 hq).elim (hW q) (flat_plain i q)

theorem target_item (W : List (List Char)) (hW : ∀ p ∈ W, Plain p) (i : Item) (hn : Plain i.name) :
    gdtfTarget ([] :: W) i.entry = some ⟨[] :: (W ++ i.folder), i.name⟩ := by
  have := folder_item W hW i hn
  unfold gdtfFolder at this
  unfold gdtfTarget
  simp only
  rw [this, extract_item i hn]
  exact setFile_in _ _ (item_folder_plain W hW i) hn

theorem key_item (i : Item) (hn : Plain i.name) : gdtfBufferKey i.entry = i.name := by
  unfold gdtfBufferKey
  rw [extract_item i hn]

/-- A text ends with its name. -/
def lastName (s : List Char) : List Char := (s.reverse.takeWhile (· ≠ '/')).reverse

theorem lastName_eq (a n : List Char) (ha : a = [] ∨ ∃ b, a = b ++ ['/']) (hn : '/' ∉ n) : lastName (a ++ n) = n := by
  unfold lastName
  have h : ∀ m : List Char, '/' ∉ m → ∀ t, (t = [] ∨ ∃ b, t = '/' :: b) → (m ++ t).takeWhile (· ≠ '/') = m := by
    intro m
    induction m with
    | nil =>
      intro _ t ht
      rcases ht with rfl | ⟨b, rfl⟩ <;> simp
    | cons c m ih =>
      intro hm t ht
      have hc : c ≠ '/' := fun h => hm (by simp [h])
      rw [List.cons_append, List.takeWhile_cons_of_pos (by simpa using hc), ih (fun h => hm (by simp [h])) t ht]
  rw [List.reverse_append, h n.reverse (by simpa using hn) a.reverse (by
    rcases ha with rfl | ⟨b, rfl⟩
    · exact Or.inl rfl
    · exact Or.inr ⟨b.reverse, by simp⟩), List.reverse_reverse]

theorem folder_inj (r r' : Res) (h : (if location r = [] then ([] : List (List Char)) else [(location r).flatten]) =
    (if location r' = [] then [] else [(location r').flatten])) : location r = location r' := by
  revert h
  cases r <;> cases r' <;> decide +kernel

/-- Different paths in the archive are unpacked to different places. -/
theorem place_inj (W : List (List Char)) (i j : Item) (hi : Plain i.name) (hj : Plain j.name) (h : i.place W = j.place W) :
    i.entry = j.entry := by
  have hend : ∀ L : List (List Char), folderText L = [] ∨ ∃ b, folderText L = b ++ ['/'] := by
    intro L
    right
    rcases List.eq_nil_or_concat L with rfl | ⟨t, x, rfl⟩
    · exact ⟨[], rfl⟩
    · exact ⟨'/' :: t.flatMap (· ++ ['/']) ++ x, by simp [folderText]⟩
  unfold Item.place at h
  have hn : i.name = j.name := by
    rw [← lastName_eq _ i.name (hend (W ++ i.folder)) (plain_no_slash hi), h, lastName_eq _ j.name (hend _) (plain_no_slash hj)]
  rw [hn] at h
  have h := List.append_cancel_right h
  have hf : i.folder = j.folder := by
    have hs : ∀ L : List (List Char), folderText (W ++ L) = folderText W ++ L.flatMap (· ++ ['/']) := by
      intro L; simp [folderText]
    rw [hs, hs] at h
    have h := List.append_cancel_left h
    unfold Item.folder at h ⊢
    by_cases h1 : location i.res = [] <;> by_cases h2 : location j.res = []
    · rw [if_pos h1, if_pos h2]
    · rw [if_pos h1, if_neg h2] at h
      simp at h
    · rw [if_neg h1, if_pos h2] at h
      simp at h
    · rw [if_neg h1, if_neg h2] at h ⊢
      simp at h
      rw [h]
  unfold Item.folder at hf
  unfold Item.entry
  rw [folder_inj _ _ hf, hn]

/-! ## The disk -/

theorem ensure_dir (fs : Fs) (W : List (List Char)) (hW : ∀ p ∈ W, Plain p) (i : Item) (hd : fs.dir (folderText W) = true) :
    (fs.ensure (some ([] :: (W ++ i.folder)))).dir (folderText (W ++ i.folder)) = true ∧
    (∀ q, fs.dir q = true → (fs.ensure (some ([] :: (W ++ i.folder)))).dir q = true) ∧
    (fs.ensure (some ([] :: (W ++ i.folder)))).file = fs.file := by
  unfold Fs.ensure
  simp only
  rw [getFullPath_plain _ (item_folder_plain W hW i)]
  by_cases h : fs.dir (folderText (W ++ i.folder)) = true
  · rw [if_pos h]; exact ⟨h, fun _ hq => hq, rfl⟩
  · rw [if_neg h]
    have hpar : getFullPath ([] :: (W ++ i.folder)).dropLast = folderText W := by
      have hne : i.folder ≠ [] := by
        intro he
        rw [he, List.append_nil] at h
        exact h hd
      obtain ⟨x, hx⟩ : ∃ x, i.folder = [x] := by
        unfold Item.folder at hne ⊢
        split at hne
        · exact absurd rfl hne
        · rename_i hl; rw [if_neg hl]; exact ⟨_, rfl⟩
      rw [hx, ← List.cons_append, List.dropLast_append_of_ne_nil (by simp), List.dropLast_singleton, List.append_nil, getFullPath_plain W hW]
    unfold Fs.mkdir
    rw [hpar, if_pos hd, getFullPath_plain _ (item_folder_plain W hW i)]
    refine ⟨by simp, ?_, rfl⟩
    intro q hq
    simp only
    split
    · rfl
    · exact hq

/-- Taking items: they are listed in order, unpacked and remembered. -/
theorem gtake_fold (W : List (List Char)) (hW : ∀ p ∈ W, Plain p) (l : List Item) (hl : ∀ i ∈ l, Plain i.name)
    (hd : ∀ i ∈ l, i.entry ≠ gdtfDesc) (hn : l.Pairwise (fun a b => a.entry ≠ b.entry)) :
    ∀ g : GGot, g.fs.dir (folderText W) = true →
    let r := (l.map (fun i => (enc i.entry, i.data))).foldl (fun g p => g.take ([] :: W) p.1 p.2) g
    r.locals = g.locals ++ l.map (fun i => some ⟨[] :: (W ++ i.folder), i.name⟩) ∧ r.desc = g.desc ∧
    r.meshes = l.foldl (fun m i => setMesh m i.name i.data) g.meshes ∧
    (∀ i ∈ l, r.fs.file (i.place W) = some i.data) ∧
    (∀ q, (∀ i ∈ l, q ≠ i.place W) → r.fs.file q = g.fs.file q) ∧ (∀ q, g.fs.dir q = true → r.fs.dir q = true) := by
  induction l with
  | nil => intro g hg; simp
  | cons x t ih =>
    intro g hg
    have hx := hl x (by simp)
    obtain ⟨e1, e2, e3⟩ := ensure_dir g.fs W hW x hg
    have e : g.take ([] :: W) (enc x.entry) x.data =
        { g with
          fs := (g.fs.ensure (some ([] :: (W ++ x.folder)))).put (x.place W) (some x.data)
          locals := g.locals ++ [some ⟨[] :: (W ++ x.folder), x.name⟩]
          meshes := setMesh g.meshes x.name x.data } := by
      unfold GGot.take
      rw [if_neg (fun h => hd x (by simp) (enc_inj h)), dec_enc, target_item W hW x hx, folder_item W hW x hx, key_item x hx]
      simp only
      rw [write_plain _ _ x.name (item_folder_plain W hW x) hx e1]
      rfl
    rw [List.map_cons, List.foldl_cons]
    simp only
    rw [e]
    have := ih (fun e he => hl e (by simp [he])) (fun e he => hd e (by simp [he])) (List.pairwise_cons.1 hn).2
      { g with
          fs := (g.fs.ensure (some ([] :: (W ++ x.folder)))).put (x.place W) (some x.data)
          locals := g.locals ++ [some ⟨[] :: (W ++ x.folder), x.name⟩]
          meshes := setMesh g.meshes x.name x.data } (e2 _ hg)
    simp only at this
    obtain ⟨h1, h2, h3, h4, h5, h6⟩ := this
    refine ⟨by rw [h1]; simp, h2, h3, ?_, ?_, fun q hq => h6 q (e2 q hq)⟩
    · intro e' he'
      rcases List.mem_cons.1 he' with rfl | he'
      · rw [h5 _ (fun y hy hxy => (List.pairwise_cons.1 hn).1 y hy (place_inj W _ _ hx (hl y (by simp [hy])) hxy))]
        exact put_same ..
      · exact h4 e' he'
    · intro q hq
      rw [h5 q (fun y hy => hq y (by simp [hy]))]
      rw [put_other _ _ _ _ (hq x (by simp)), e3]

theorem gdtfLoop_walk {codec : Codec} {fuel : Nat} {stale : Byte} {garbage : FileInfo} {working : List (List Char)} {data : List Byte}
    (l : List (List Byte × List Byte)) : ∀ rounds path g e, walk fuel data stale rounds path = .ok (l.map Prod.fst, e) →
    (∀ p ∈ l, getFile codec fuel data garbage p.1 = .ok (.noError, some p.2)) →
    gdtfLoop codec fuel stale garbage working data rounds path g = .ok (l.foldl (fun g p => g.take working p.1 p.2) g) := by
  induction l with
  | nil =>
    intro rounds path g e h _
    cases rounds with
    | zero => exact absurd h (by simp [walk])
    | succ r =>
      rw [walk] at h
      rw [gdtfLoop]
      cases hn : getNextFile fuel data stale path with
      | error x => rw [hn] at h; exact absurd h (by simp [bind, Except.bind])
      | ok x =>
        rw [hn] at h
        simp only [bind, Except.bind] at h ⊢
        by_cases hx : x.1 = .noError
        · rw [if_pos hx] at h
          cases hw : walk fuel data stale r x.2 with
          | error y => rw [hw] at h; exact absurd h (by simp)
          | ok y => rw [hw] at h; exact absurd h (by simp)
        · rw [if_neg hx]; rfl
  | cons p t ih =>
    intro rounds path g e h hg
    cases rounds with
    | zero => exact absurd h (by simp [walk])
    | succ r =>
      rw [walk] at h
      rw [gdtfLoop]
      cases hn : getNextFile fuel data stale path with
      | error x => rw [hn] at h; exact absurd h (by simp [bind, Except.bind])
      | ok x =>
        rw [hn] at h
        simp only [bind, Except.bind] at h ⊢
        by_cases hx : x.1 = .noError
        · rw [if_pos hx] at h ⊢
          cases hw : walk fuel data stale r x.2 with
          | error y => rw [hw] at h; exact absurd h (by simp)
          | ok y =>
            rw [hw] at h
            simp only [Except.ok.injEq, Prod.mk.injEq, List.map_cons, List.cons.injEq] at h
            obtain ⟨⟨h1, h2⟩, h3⟩ := h
            rw [h1, hg p (by simp)]
            simp only [if_true, Option.getD_some]
            rw [List.foldl_cons]
            refine ih r p.1 _ y.2 ?_ (fun q hq => hg q (by simp [hq]))
            rw [← h1, hw, ← h2]
        · rw [if_neg hx] at h
          exact absurd h (by simp)

/-! ## Archives from additions at any times -/

theorem stampAll_congr (f g : Nat → Stamp) (es : List (List Char × List Byte)) : ∀ k, (∀ j, k ≤ j → f j = g j) →
    stampAll f k es = stampAll g k es := by
  induction es with
  | nil => intro k _; rfl
  | cons e t ih =>
    intro k h
    rw [stampAll, stampAll, h k (Nat.le_refl _), ih (k + 1) (fun j hj => h j (by omega))]

theorem stamps_exist (as : List Add) : ∀ (es : List (List Char × List Byte)) (k : Nat),
    as.map (fun a => (a.path, a.content)) = es.map (fun e => (enc e.1, e.2)) → ∃ stamps, as = stampAll stamps k es := by
  induction as with
  | nil =>
    intro es k h
    cases es with
    | nil => exact ⟨fun _ => ⟨0, 0, 0⟩, rfl⟩
    | cons e t => simp at h
  | cons a t ih =>
    intro es k h
    cases es with
    | nil => simp at h
    | cons e es =>
      rw [List.map_cons, List.map_cons, List.cons.injEq, Prod.mk.injEq] at h
      obtain ⟨⟨h1, h2⟩, h3⟩ := h
      obtain ⟨f, hf⟩ := ih es (k + 1) h3
      refine ⟨fun j => if j = k then ⟨a.crc, a.dosDate, a.dosTime⟩ else f j, ?_⟩
      rw [stampAll, if_pos rfl, stampAll_congr _ f es (k + 1) (fun j hj => if_neg (by omega)), ← hf, ← h1, ← h2]

theorem addEntries_append {codec : Codec} {fuel : Nat} (as bs : List Add) : ∀ z,
    addEntries codec fuel z (as ++ bs) = (addEntries codec fuel z as) >>= fun z => addEntries codec fuel z bs := by
  induction as with
  | nil => intro z; rfl
  | cons a t ih =>
    intro z
    rw [List.cons_append, addEntries, addEntries]
    cases addFile codec fuel z a with
    | error e => rfl
    | ok v => exact ih v.2

theorem stampAll_pairs (stamps : Nat → Stamp) (es : List (List Char × List Byte)) : ∀ k,
    (stampAll stamps k es).map (fun a => (a.path, a.content)) = es.map (fun e => (enc e.1, e.2)) := by
  induction es with
  | nil => intro k; rfl
  | cons e t ih => intro k; rw [stampAll, List.map_cons, List.map_cons, ih]

/-! ## Meshes -/

theorem setMesh_find (m : List (List Char × List Byte)) (k : List Char) (v : List Byte) (x : List Char) :
    ((setMesh m k v).find? (fun e => eqNoCase e.1 x)).map (·.2) =
      if eqNoCase k x then some v else (m.find? (fun e => eqNoCase e.1 x)).map (·.2) := by
  unfold eqNoCase
  have hmap : ∀ m : List (List Char × List Byte), (m.map (fun e => if eqNoCase e.1 k then (e.1, v) else e)).find? (fun e => eqNoCase e.1 x) =
      (m.find? (fun e => eqNoCase e.1 x)).map (fun e => if eqNoCase e.1 k then (e.1, v) else e) := by
    intro m
    rw [List.find?_map]
    congr 1
    congr 1
    funext e
    simp only [Function.comp_apply]
    split <;> rfl
  by_cases hk : makeUpper k = makeUpper x
  · rw [if_pos (by simpa using hk)]
    unfold setMesh
    by_cases ha : m.any (fun e => eqNoCase e.1 k) = true
    · rw [if_pos ha]
      have := hmap m
      unfold eqNoCase at this
      unfold eqNoCase at ha ⊢
      rw [this]
      obtain ⟨e, he, hek⟩ := List.any_eq_true.1 ha
      cases hf : m.find? (fun e => decide (makeUpper e.1 = makeUpper x)) with
      | none =>
        have := List.find?_eq_none.1 hf e he
        simp only [decide_eq_true_eq] at this hek
        exact absurd (hek.trans hk) this
      | some y =>
        have := List.find?_some hf
        simp only [decide_eq_true_eq] at this
        simp [this, hk]
    · rw [if_neg ha]
      rw [List.find?_append]
      have : m.find? (fun e => decide (makeUpper e.1 = makeUpper x)) = none := by
        rw [List.find?_eq_none]
        intro e he h
        refine ha (List.any_eq_true.2 ⟨e, he, ?_⟩)
        unfold eqNoCase
        simp only [decide_eq_true_eq] at h ⊢
        rw [h, hk]
      rw [this]
      simp [hk]
  · rw [if_neg (by simpa using hk)]
    unfold setMesh
    by_cases ha : m.any (fun e => eqNoCase e.1 k) = true
    · rw [if_pos ha]
      have := hmap m
      unfold eqNoCase at this
      unfold eqNoCase
      rw [this]
      cases hf : m.find? (fun e => decide (makeUpper e.1 = makeUpper x)) with
      | none => rfl
      | some y =>
        have := List.find?_some hf
        simp only [decide_eq_true_eq] at this
        have hne : makeUpper y.1 ≠ makeUpper k := fun h => hk (h.symm.trans this)
        simp [hne]
    · rw [if_neg ha, List.find?_append]
      simp [hk]

theorem meshes_find (l : List Item) (x : List Char) : ∀ m : List (List Char × List Byte),
    ((l.foldl (fun m i => setMesh m i.name i.data) m).find? (fun e => eqNoCase e.1 x)).map (·.2) =
      ((l.reverse.find? (fun i => eqNoCase i.name x)).map (·.data)).or ((m.find? (fun e => eqNoCase e.1 x)).map (·.2)) := by
  induction l with
  | nil => intro m; simp
  | cons i t ih =>
    intro m
    rw [List.foldl_cons, ih, setMesh_find, List.reverse_cons, List.find?_append]
    cases h : t.reverse.find? (fun i => eqNoCase i.name x) with
    | some y => simp
    | none => by_cases hi : eqNoCase i.name x = true <;> simp [hi]

/-- Names different in any case: the map has them all. -/
theorem meshes_distinct (l : List Item) (h : l.Pairwise (fun a b => eqNoCase a.name b.name = false)) :
    ∀ m : List (List Char × List Byte), (∀ e ∈ m, ∀ i ∈ l, eqNoCase e.1 i.name = false) →
    l.foldl (fun m i => setMesh m i.name i.data) m = m ++ l.map (fun i => (i.name, i.data)) := by
  induction l with
  | nil => intro m _; simp
  | cons i t ih =>
    intro m hm
    have hp := List.pairwise_cons.1 h
    rw [List.foldl_cons]
    have : setMesh m i.name i.data = m ++ [(i.name, i.data)] := by
      unfold setMesh
      rw [if_neg]
      intro ha
      obtain ⟨e, he, hek⟩ := List.any_eq_true.1 ha
      rw [hm e he i (by simp)] at hek
      exact absurd hek (by simp)
    rw [this, ih hp.2]
    · simp
    · intro e he j hj
      rcases List.mem_append.1 he with he | he
      · exact hm e he j (by simp [hj])
      · rw [List.mem_singleton.1 he]
        exact hp.1 j hj

/-! ## Preparing and dropping -/

theorem drop_dir (o : Fix) (fs : Fs) : (o.dropFixture fs).dir = fs.dir := by
  unfold Fix.dropFixture
  generalize o.locals = l
  induction l generalizing fs with
  | nil => rfl
  | cons f t ih =>
    rw [List.foldl_cons, ih]
    unfold Fs.remove
    split <;> rfl

theorem drop_file (o : Fix) (fs : Fs) (q : List Char) (h : ∀ i < o.count, o.at_ i ≠ q) : (o.dropFixture fs).file q = fs.file q := by
  unfold Fix.dropFixture
  have h' : ∀ f ∈ o.locals, ∀ g, f = some g → g.fullPath ≠ q := by
    intro f hf g hg
    obtain ⟨i, hi, he⟩ := List.mem_iff_getElem.1 hf
    have := h i hi
    unfold Fix.at_ at this
    rw [List.getElem?_eq_getElem hi, he, hg] at this
    exact this
  revert h'
  generalize o.locals = l
  clear h
  intro h
  induction l generalizing fs with
  | nil => rfl
  | cons f t ih =>
    rw [List.foldl_cons, ih _ (fun f hf => h f (by simp [hf]))]
    cases f with
    | none => rfl
    | some g => exact put_other _ _ _ _ (fun e => h (some g) (by simp) g rfl e.symm)

theorem drop_gone (o : Fix) (fs : Fs) (i : Nat) (hi : i < o.count) (hne : o.at_ i ≠ []) : (o.dropFixture fs).file (o.at_ i) = none := by
  unfold Fix.dropFixture
  obtain ⟨f, hf, hat⟩ : ∃ f, some f ∈ o.locals ∧ o.at_ i = f.fullPath := by
    unfold Fix.at_ at hne ⊢
    have hi : i < o.locals.length := hi
    rw [List.getElem?_eq_getElem hi] at hne ⊢
    cases h : o.locals[i] with
    | none => rw [h] at hne; exact absurd rfl hne
    | some f => exact ⟨f, by rw [← h]; exact List.getElem_mem hi, rfl⟩
  rw [hat]
  generalize o.locals = l at hf
  have hkeep : ∀ (l : List (Option File)) (fs : Fs), fs.file f.fullPath = none → (l.foldl Fs.remove fs).file f.fullPath = none := by
    intro l
    induction l with
    | nil => intro fs h; exact h
    | cons x t ih =>
      intro fs h
      rw [List.foldl_cons]
      refine ih _ ?_
      cases x with
      | none => exact h
      | some x =>
        by_cases hx : f.fullPath = x.fullPath
        · rw [hx]; exact put_same ..
        · exact (put_other _ _ _ _ hx).trans h
  induction l generalizing fs with
  | nil => exact absurd hf (by simp)
  | cons x t ih =>
    rw [List.foldl_cons]
    rcases List.mem_cons.1 hf with rfl | hf
    · exact hkeep t _ (put_same ..)
    · exact ih _ hf

theorem prepare_dir (fs : Fs) (B : List (List Char)) (g n : List Char) (hW : ∀ q ∈ B ++ [g, n], Plain q)
    (hd : fs.dir (folderText B) = true) : (prepare fs ([] :: (B ++ [g, n]))).dir (folderText (B ++ [g, n])) = true := by
  have e1 : ([] :: (B ++ [g, n]) : List (List Char)).dropLast = [] :: (B ++ [g]) := by
    rw [show (B ++ [g, n]) = (B ++ [g]) ++ [n] by simp, ← List.cons_append, List.dropLast_concat]
  have e2 : (B ++ [g, n]).dropLast = B ++ [g] := by
    rw [show (B ++ [g, n]) = (B ++ [g]) ++ [n] by simp, List.dropLast_concat]
  have e3 : ([] :: (B ++ [g]) : List (List Char)).dropLast = [] :: B := by
    rw [← List.cons_append, List.dropLast_concat]
  unfold prepare
  refine fresh_dir _ _ hW (by simp) ?_
  rw [e1, e2]
  unfold Fs.mkdir
  rw [e3, getFullPath_plain B (fun q hq => hW q (by simp [hq])), if_pos hd, getFullPath_plain (B ++ [g]) (fun q hq => hW q (by
    simp at hq ⊢; rcases hq with h | h <;> simp [h]))]
  simp

theorem prepare_above (fs : Fs) (B : List (List Char)) (g n : List Char) (hW : ∀ q ∈ B ++ [g, n], Plain q)
    (hd : fs.dir (folderText B) = true) : (prepare fs ([] :: (B ++ [g, n]))).dir (folderText B) = true := by
  have hmk : ∀ (fs : Fs) h, fs.dir (folderText B) = true → (fs.mkdir h).dir (folderText B) = true := by
    intro fs h hd
    unfold Fs.mkdir
    split
    · simp only
      split
      · rfl
      · exact hd
    · exact hd
  unfold prepare Fs.fresh
  exact hmk _ _ (hmk _ _ hd)

theorem prepare_file (fs : Fs) (W : List (List Char)) : (prepare fs W).file = fs.file := by
  unfold prepare
  rw [fresh_same]
  unfold Fs.mkdir
  split <;> rfl

/-! ## Reading a package -/

theorem from_package {codec : Codec} {fuel : Nat} {stale : Byte} {garbage : FileInfo} {data : List Byte} (B : List (List Char))
    (g n : List Char) (hW : ∀ q ∈ B ++ [g, n], Plain q) (pre post : List Item) (xml : List Byte)
    (hn : ∀ i ∈ pre ++ post, Plain i.name) (hd : ∀ i ∈ pre ++ post, i.entry ≠ gdtfDesc)
    (hp : (pre ++ post).Pairwise (fun a b => a.entry ≠ b.entry)) (e : Err)
    (hwalk : walk fuel data stale fuel [] =
      .ok (((package pre ++ (gdtfDesc, xml) :: package post).map (fun e => (enc e.1, e.2))).map Prod.fst, e))
    (hget : ∀ p ∈ (package pre ++ (gdtfDesc, xml) :: package post).map (fun e => (enc e.1, e.2)),
      getFile codec fuel data garbage p.1 = .ok (.noError, some p.2))
    (r0 : Fix) (later : Fs) (hl : later.dir (folderText B) = true) :
    ∃ r fs, r0.fromBuffer codec fuel stale garbage ([] :: (B ++ [g, n])) later data = .ok (.noError, r, fs) ∧
      Restored (B ++ [g, n]) (pre ++ post) xml r0 later r fs ∧ r.open_ = true ∧ r.added = [] ∧
      r.meshes = (pre ++ post).foldl (fun m i => setMesh m i.name i.data) [] ∧ r.zip = r0.zip ∧
      fs.dir (folderText (B ++ [g, n])) = true ∧ fs.dir (folderText B) = true ∧ (∀ q,
        (∀ i ∈ pre ++ post, q ≠ i.place (B ++ [g, n])) → fs.file q = (r0.dropFixture later).file q) := by
  have hpb := prepare_above (r0.dropFixture later) B g n hW (by rw [drop_dir]; exact hl)
  have hpd := prepare_dir (r0.dropFixture later) B g n hW (by rw [drop_dir]; exact hl)
  generalize B ++ [g, n] = W at hW hpd hpb ⊢
  have hp' := List.pairwise_append.1 hp
  unfold Fix.fromBuffer
  rw [gdtfLoop_walk _ _ _ _ _ hwalk hget, List.map_append, List.map_cons, List.foldl_append, List.foldl_cons]
  have hm : ∀ l : List Item, (package l).map (fun e => (enc e.1, e.2)) = l.map (fun i => (enc i.entry, i.data)) := by
    intro l; simp [package]
  rw [hm, hm]
  have h1 := gtake_fold W hW pre (fun i hi => hn i (by simp [hi])) (fun i hi => hd i (by simp [hi])) hp'.1
    ⟨prepare (r0.dropFixture later) ([] :: W), [], [], none⟩ hpd
  simp only at h1
  generalize hg1 : (pre.map (fun i => (enc i.entry, i.data))).foldl (fun (g : GGot) p => g.take ([] :: W) p.1 p.2)
    ⟨prepare (r0.dropFixture later) ([] :: W), [], [], none⟩ = g1 at h1
  obtain ⟨a1, a2, a3, a4, a5, a6⟩ := h1
  have htake : g1.take ([] :: W) (enc gdtfDesc) xml = { g1 with desc := some xml } := by
    unfold GGot.take
    rw [if_pos rfl]
  have h2 := gtake_fold W hW post (fun i hi => hn i (by simp [hi])) (fun i hi => hd i (by simp [hi])) hp'.2.1
    { g1 with desc := some xml } (a6 _ hpd)
  simp only at h2
  simp only
  rw [htake]
  generalize hg2 : (post.map (fun i => (enc i.entry, i.data))).foldl (fun (g : GGot) p => g.take ([] :: W) p.1 p.2) { g1 with desc := some xml } = g2 at h2
  obtain ⟨b1, b2, b3, b4, b5, b6⟩ := h2
  have hloc : g2.locals = (pre ++ post).map (fun i => some ⟨[] :: (W ++ i.folder), i.name⟩) := by
    rw [b1, a1]; simp
  have hmesh : g2.meshes = (pre ++ post).foldl (fun m i => setMesh m i.name i.data) [] := by
    rw [b3, a3, List.foldl_append]
  have hfiles : ∀ i ∈ pre ++ post, g2.fs.file (i.place W) = some i.data := by
    intro i hi
    rcases List.mem_append.1 hi with h | h
    · rw [b5 _ (fun j hj he => hp'.2.2 i h j hj (place_inj W i j (hn i hi) (hn j (by simp [hj])) he)), a4 i h]
    · exact b4 i h
  simp only [bind, Except.bind]
  refine ⟨{ r0 with open_ := true, added := [], buffer := data, locals := g2.locals, meshes := g2.meshes, desc := g2.desc }, g2.fs,
    by rw [b2]; rfl, ⟨?_, ?_, ?_, ?_, ?_⟩, rfl, rfl, hmesh, rfl, b6 _ (a6 _ hpd), b6 _ (a6 _ hpb), ?_⟩
  · exact b2
  · show g2.locals.length = _
    rw [hloc]; simp
  · intro i h
    have hat : ∀ o : Fix, o.locals = g2.locals → o.at_ i = (pre ++ post)[i].place W := by
      intro o ho
      unfold Fix.at_
      rw [ho, hloc, List.getElem?_map, List.getElem?_eq_getElem h]
      simp only [Option.map_some]
      exact fullPath_plain _ _ (item_folder_plain W hW _) (hn _ (List.getElem_mem h))
    rw [hat _ rfl]
    exact ⟨rfl, hfiles _ (List.getElem_mem h)⟩
  · intro file ext
    show ((g2.meshes.find? _).map _) = _
    rw [hmesh, meshes_find]
    simp
  · intro q hq hr
    have hout : ∀ i : Item, q ≠ i.place W := by
      intro i he
      refine hq ⟨i.folder.flatMap (· ++ ['/']) ++ i.name, ?_⟩
      rw [he]
      simp [Item.place, folderText]
    rw [b5 q (fun i _ => hout i), a5 q (fun i _ => hout i), prepare_file, drop_file _ _ _ hr]
  · intro q hr
    rw [b5 _ (fun i hi => hr i (by simp [hi])), a5 _ (fun i hi => hr i (by simp [hi])), prepare_file]

theorem walk_nil {fuel : Nat} {stale : Byte} {r : Nat} {l : List (List Byte)} {e : Err} (h : walk fuel [] stale r [] = .ok (l, e)) : l = [] := by
  cases r with
  | zero => exact absurd h (by simp [walk])
  | succ r =>
    rw [walk, show getNextFile fuel [] stale [] = .ok (.failed, []) from rfl] at h
    simp [bind, Except.bind] at h
    exact h.1

/-! ## Writing a package -/

theorem unused_package (l : List Item) : ∀ used, unused used (package l) = package (once used l) := by
  induction l with
  | nil => intro used; rfl
  | cons i t ih =>
    intro used
    show unused used ((i.entry, i.data) :: package t) = _
    rw [unused, once]
    by_cases h : i.entry ∈ used
    · rw [if_pos h, if_pos h, ih]
    · rw [if_neg h, if_neg h, ih]; rfl

theorem once_sub (l : List Item) : ∀ used, ∀ i ∈ once used l, i ∈ l ∧ i.entry ∉ used := by
  induction l with
  | nil => intro used i hi; exact absurd hi (by simp [once])
  | cons x t ih =>
    intro used i hi
    rw [once] at hi
    split at hi
    · exact ⟨List.mem_cons_of_mem _ (ih _ i hi).1, (ih _ i hi).2⟩
    · rename_i hx
      rcases List.mem_cons.1 hi with rfl | hi
      · exact ⟨by simp, hx⟩
      · exact ⟨List.mem_cons_of_mem _ (ih _ i hi).1, fun h => (ih _ i hi).2 (by simp [h])⟩

theorem once_nodup (l : List Item) : ∀ used, (once used l).Pairwise (fun a b => a.entry ≠ b.entry) := by
  induction l with
  | nil => intro used; exact List.Pairwise.nil
  | cons x t ih =>
    intro used
    rw [once]
    split
    · exact ih _
    · refine List.pairwise_cons.2 ⟨?_, ih _⟩
      intro i hi he
      exact (once_sub t _ i hi).2 (by simp [he])

theorem once_self (l : List Item) : ∀ used, l.Pairwise (fun a b => a.entry ≠ b.entry) → (∀ i ∈ l, i.entry ∉ used) → once used l = l := by
  induction l with
  | nil => intro used _ _; rfl
  | cons x t ih =>
    intro used hp hu
    rw [once, if_neg (hu x (by simp)), ih _ (List.pairwise_cons.1 hp).2]
    intro i hi h
    rcases List.mem_append.1 h with h | h
    · exact hu i (by simp [hi]) h
    · exact (List.pairwise_cons.1 hp).1 i hi (List.mem_singleton.1 h).symm

theorem unused_last (l : List (List Char × List Byte)) (k : List Char) (v : List Byte) : ∀ used, k ∉ used → (∀ e ∈ l, e.1 ≠ k) →
    unused used (l ++ [(k, v)]) = unused used l ++ [(k, v)] := by
  induction l with
  | nil => intro used hk _; simp [unused, hk]
  | cons e t ih =>
    intro used hk hl
    rw [List.cons_append, unused, unused]
    split
    · exact ih used hk (fun e he => hl e (by simp [he]))
    · rw [ih _ (by intro h; rcases List.mem_append.1 h with h | h; exact hk h; exact hl e (by simp) (List.mem_singleton.1 h).symm)
        (fun e he => hl e (by simp [he]))]
      rfl

/-- What a call adds to the archive. -/
def callAdd (c : Stamp × Fs × GCall) : Option Add :=
  (c.2.2.item c.2.1).map (fun i => ⟨enc i.entry, i.data, c.1.crc, c.1.date, c.1.time⟩)

theorem callAdd_pairs (calls : List (Stamp × Fs × GCall)) :
    (calls.filterMap callAdd).map (fun a => (a.path, a.content)) = (package (items calls)).map (fun e => (enc e.1, e.2)) := by
  unfold items package
  induction calls with
  | nil => rfl
  | cons c t ih =>
    rw [List.filterMap_cons, List.filterMap_cons]
    have hc : callAdd c = (c.2.2.item c.2.1).map (fun i => ⟨enc i.entry, i.data, c.1.crc, c.1.date, c.1.time⟩) := rfl
    rw [hc]
    cases h : c.2.2.item c.2.1 with
    | none => exact ih
    | some i =>
      simp only [Option.map_some, List.map_cons]
      rw [← ih]

theorem gperform_eq {codec : Codec} {fuel : Nat} (calls : List (Stamp × Fs × GCall)) (hc : ∀ c ∈ calls, c.2.2.Usual) :
    ∀ (o : Fix) (z z' : Zip), o.open_ = true → o.zip = some z → addEntries codec fuel z (calls.filterMap callAdd) = .ok z' →
    gperform codec fuel o calls = .ok { o with zip := some z', added := o.added ++ package (bufferItems calls) } := by
  induction calls with
  | nil =>
    intro o z z' _ ho hz
    rw [List.filterMap_nil, addEntries, Except.ok.injEq] at hz
    rw [gperform, ← hz, ← ho]
    simp [bufferItems, package]
  | cons c t ih =>
    intro o z z' hopen ho hz
    have ih := ih (fun c h => hc c (by simp [h]))
    have hu := hc c (by simp)
    obtain ⟨s, fs, c⟩ := c
    cases c with
    | file p res n =>
      rw [gperform]
      unfold Fix.addFile
      rw [if_neg (by simp [hopen]), ho, setText_plain hu.1]
      simp only
      rw [fullPath_plain _ _ hu.1.1 hu.1.2]
      have hb : bufferItems ((s, fs, .file p res n) :: t) = bufferItems t := rfl
      rw [hb]
      have htext : folderText p.folders ++ p.name = p.text := rfl
      rw [htext]
      cases hf : fs.file p.text with
      | none =>
        simp only [bind, Except.bind]
        rw [List.filterMap_cons, show callAdd (s, fs, .file p res n) = none by simp [callAdd, GCall.item, hf]] at hz
        exact ih o z z' hopen ho hz
      | some d =>
        simp only
        rw [List.filterMap_cons, show callAdd (s, fs, .file p res n) =
          some ⟨enc (Item.entry ⟨res, if n = [] then p.name else n, d⟩), d, s.crc, s.date, s.time⟩ by simp [callAdd, GCall.item, hf]] at hz
        simp only at hz
        rw [addEntries] at hz
        unfold addOne
        rw [show entryText res (if n = [] then p.name else n) = Item.entry ⟨res, if n = [] then p.name else n, d⟩ from
          entryText_eq res (if n = [] then p.name else n) d]
        cases ha : Zip.addFile codec fuel z ⟨enc (Item.entry ⟨res, if n = [] then p.name else n, d⟩), d, s.crc, s.date, s.time⟩ with
        | error e => rw [ha] at hz; exact absurd hz (by simp [bind, Except.bind])
        | ok v =>
          rw [ha] at hz
          simp only [bind, Except.bind] at hz ⊢
          exact ih _ v.2 z' hopen rfl hz
    | buffer n d res =>
      rw [gperform]
      unfold Fix.addBuffer
      rw [if_neg (by simp [hopen]), ho]
      simp only
      have hb : bufferItems ((s, fs, .buffer n d res) :: t) = ⟨res, n, d⟩ :: bufferItems t := rfl
      rw [hb]
      rw [List.filterMap_cons, show callAdd (s, fs, .buffer n d res) =
          some ⟨enc (Item.entry ⟨res, n, d⟩), d, s.crc, s.date, s.time⟩ by simp [callAdd, GCall.item]] at hz
      simp only at hz
      rw [addEntries] at hz
      unfold addOne
      rw [show entryText res n = Item.entry ⟨res, n, d⟩ from entryText_eq res n d]
      cases ha : Zip.addFile codec fuel z ⟨enc (Item.entry ⟨res, n, d⟩), d, s.crc, s.date, s.time⟩ with
      | error e => rw [ha] at hz; exact absurd hz (by simp [bind, Except.bind])
      | ok v =>
        rw [ha] at hz
        simp only [bind, Except.bind] at hz ⊢
        rw [ih { o with zip := some v.2, added := o.added ++ [(Item.entry ⟨res, n, d⟩, d)] } v.2 z' hopen rfl hz]
        simp [package]

theorem entry_no_backslash (i : Item) (hn : Plain i.name) : '\\' ∉ i.entry := by
  unfold Item.entry
  intro h
  rcases List.mem_append.1 h with h | h
  · obtain ⟨q, hq, h⟩ := List.mem_flatMap.1 h
    rcases List.mem_append.1 h with h | h
    · exact (location_plain _ q hq).2 h
    · exact absurd (List.mem_singleton.1 h) (by decide)
  · exact (hn.2.2 _ h).2.1 rfl

end Verif.Pack
