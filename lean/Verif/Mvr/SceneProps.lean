import Verif.Mvr.SceneLemmas
import Verif.Mvr.Checks
import Verif.Pack.Props
import Verif.Xml.Props

/-!
# C86: a scene goes through a file
-/

namespace Verif.Mvr

open Verif.Str Verif.Text Verif.Real Verif.Dmx Spec Verif.UnicodeSpec
open Verif.Gdtf (charsOf bytesOf attrIn chars_bytes bytes_chars octets_text)
open Verif.Xml (readBuffer writeXmlText)
open Verif.Xml.Spec (Clean Name Plain Plains levels)

theorem describe_read {w : Exchange} (h : Ordinary w) :
    readBuffer (charsOf w.describe) = if levels (write classes w.content) ≤ 98 then some w.doc else none := by
  unfold Exchange.describe
  rw [chars_bytes (octets_text (utf8Xml_octets _ (doc_utf8 h))), Xml.read_tree _ (doc_plain h), doc_levels]

theorem version_back (m : Nat) (hm : m ≤ 2147483647) : toSint 32 ((toUint 64 (m : Int) : Nat) : Int) = m := by
  unfold toSint toUint
  have e1 : ((m : Int) % 2 ^ 64) = m := by omega
  have e2 : ((((m : Int).toNat : Nat) : Int) % 2 ^ 32) = m := by omega
  simp only [e1, e2]
  rw [if_pos (by omega)]

theorem version_of (e : Exchange) (a b : Nat) (h1 : e.major = toUint 64 (a : Int)) (h2 : e.minor = toUint 64 (b : Int)) (ha : a ≤ 2147483647)
    (hb : b ≤ 2147483647) : e.version = ((a : Int), (b : Int)) := by
  unfold Exchange.version
  rw [h1, h2, version_back a ha, version_back b hb]

/-- **C86**, the description: what one object writes another one, whatever it has read before, holds behind what it has held; a new one
holds the same scene and nothing else. -/
theorem C86_description_partial (F : Fl) (w : Exchange) (h : Ordinary w) (hl : levels (write classes w.content) ≤ 98) :
    (∀ e, ∃ r, Exchange.read F e (some w.describe) = some r ∧ Gained e w r) ∧
    ∃ r, Exchange.read F {} (some w.describe) = some r ∧ Same (prune w.content) r.content ∧ r.version = (1, 6) := by
  obtain ⟨k, h1, h2⟩ := doc_eq w
  have hs := C65_partial F w.content h.build
  rw [h1] at hs
  obtain ⟨us, ls, ds, ps, ss, ha, s1, s2, s3, s4, s5⟩ := same_shape hs
  have key : ∀ e : Exchange, Exchange.read F e (some w.describe) =
      some ⟨e.provider, e.providerVersion, e.userData ++ us, e.layers ++ ls, e.mapDefs ++ ds, e.positions ++ ps, e.symDefs ++ ss,
        toUint 64 1, toUint 64 6⟩ := by
    intro e
    unfold Exchange.read
    simp only
    rw [describe_read h, if_pos hl]
    simp only
    rw [utf8Xml_converts _ (doc_utf8 h), if_neg (by decide), h2]
    have a1 : atoi (((Scene.Xml.elem "GeneralSceneDescription".toList w.rootAttrs [] k).attr? "verMajor".toList).getD []) = some 1 := by
      have : (Scene.Xml.elem "GeneralSceneDescription".toList w.rootAttrs [] k).attr? "verMajor".toList = some (intText 1) := rfl
      rw [this]
      exact atoi_intText 1 (by decide) (by decide)
    have a2 : atoi (((Scene.Xml.elem "GeneralSceneDescription".toList w.rootAttrs [] k).attr? "verMinor".toList).getD []) = some 6 := by
      have : (Scene.Xml.elem "GeneralSceneDescription".toList w.rootAttrs [] k).attr? "verMinor".toList = some (intText 6) := rfl
      rw [this]
      exact atoi_intText 6 (by decide) (by decide)
    rw [a1, a2]
    simp only [bind, Option.bind]
    rw [read_root F _ "GeneralSceneDescription".toList _ [], show w.content.cls = "SceneDataExchange" from rfl] at *
    rw [ha]
  refine ⟨fun e => ⟨_, key e, ⟨us, rfl, s1⟩, ⟨ls, rfl, s2⟩, ⟨ds, rfl, s3⟩, ⟨ps, rfl, s4⟩, ⟨ss, rfl, s5⟩, ?_⟩, _, key {}, ?_, ?_⟩
  · exact version_of _ 1 6 rfl rfl (by decide) (by decide)
  · have e1 : ∀ vs ks, ¬ EmptyGroup (.mk "Exchange.Scene" vs ks) := by intro vs ks h; unfold EmptyGroup at h; exact absurd h.1 (by decide)
    have e2 : ∀ vs ks, ¬ EmptyGroup (.mk "Exchange.AUXData" vs ks) := by intro vs ks h; unfold EmptyGroup at h; exact absurd h.1 (by decide)
    unfold Exchange.content
    simp only [prune, pruneAll, pruneList, e1, e2, if_false, Same, SameAll, SameList, CloseAll, List.nil_append, true_and, and_true]
    exact ⟨s1, s2, s3, s4, s5⟩
  · exact version_of _ 1 6 rfl rfl (by decide) (by decide)

/-- **C86**, the whole way: a scene is put into a package with files, buffers and GDTF files as in C77. Whoever opens the file later,
with any object, is told that it has succeeded, and the object holds the scene. -/
theorem C86_package_partial (F : Fl) (w : Exchange) (h : Ordinary w) (hl : levels (write classes w.content) ≤ 98)
    {codec : Zip.Codec} (hcodec : Zip.Spec.Lossless codec) (fuel : Nat) (stamps : Nat → Pack.Stamp)
    (W : List (List Char)) (hW : ∀ q ∈ W, Path.Spec.Plain q) (fs : Pack.Fs)
    (calls : List Pack.Spec.Call) (hc : ∀ c ∈ calls, c.Usual) (gdtfs : List (List Char)) (hg : ∀ n ∈ gdtfs, Path.Spec.Plain n)
    (hcase : Pack.Spec.OneCase gdtfs)
    (p : Pack.Spec.Place) (hp : p.Usual) (hdir : fs.dir (Path.Spec.folderText p.folders) = true)
    (hfit : Pack.Spec.Fits codec true ((Pack.descName, w.describe) :: Pack.Spec.unused [Pack.descName] (Pack.Spec.given fs calls gdtfs)))
    (hf : calls.length + gdtfs.length + 2 ≤ fuel) :
    ∃ o o' fs1, (Pack.Spec.perform fs {} calls).openWrite p.text = (.noError, o) ∧
      o.close codec fuel stamps fs w.describe gdtfs = .ok (.noError, o', fs1) ∧
      ∀ (stale : Byte) (garbage : Zip.FileInfo) (o0 : Pack.Mvr) (e : Exchange) (later : Pack.Fs),
        later.file p.text = fs1.file p.text → later.dir (Path.Spec.folderText W) = true →
        ∃ r fs2 s, o0.openRead codec fuel stale garbage ([] :: W) later p.text = .ok (.noError, r, fs2) ∧
          e.read F r.desc = some s ∧ Gained e w s := by
  obtain ⟨o, o', fs1, h1, h2, -, -, -, h3⟩ :=
    Pack.C77_any_reader_partial hcodec fuel stamps W hW fs calls hc gdtfs hg hcase p hp hdir w.describe hfit hf
  refine ⟨o, o', fs1, h1, h2, ?_⟩
  intro stale garbage o0 e later hlater hd
  obtain ⟨r, fs2, r1, r2, -⟩ := h3 stale garbage o0 later hlater hd
  obtain ⟨s, s1, s2⟩ := (C86_description_partial F w h hl).1 e
  exact ⟨r, fs2, s, r1, by rw [r2]; exact s1, s2⟩

/-- C86: the version of a file is the one its root node tells. -/
theorem C86_version (F : Fl) (e : Exchange) (n : Text) (a : List (Text × Text)) (t : Text) (k : List Xml) (major minor : Nat)
    (hp : Plain (.elem n a t k)) (hu : Utf8Xml (.elem n a t k)) (hl : levels (Scene.Xml.elem n a t k) ≤ 98)
    (h1 : ("verMajor".toList, natText major) ∈ a) (h2 : ("verMinor".toList, natText minor) ∈ a)
    (hm : major ≤ 2147483647) (hm' : minor ≤ 2147483647) :
    ∃ r, e.read F (some (bytesOf (writeXmlText (.elem n a t k)))) = some r ∧ r.version = ((major : Int), (minor : Int)) := by
  have hn : (a.map (·.1)).Nodup := by rw [Plain] at hp; exact hp.2.2.1
  have find : ∀ (b : List (Text × Text)) (x : Text × Text), (b.map (·.1)).Nodup → x ∈ b → (b.find? (fun p => p.1 == x.1)) = some x := by
    intro b x hb hx
    induction b with
    | nil => cases hx
    | cons y b ih =>
      simp only [List.map_cons, List.nodup_cons] at hb
      rw [List.find?_cons]
      rcases List.mem_cons.1 hx with hx | hx
      · subst hx; simp
      · have : y.1 ≠ x.1 := fun he => hb.1 (he ▸ List.mem_map.2 ⟨x, hx, rfl⟩)
        rw [beq_eq_false_iff_ne.2 this]
        exact ih hb.2 hx
  have a1 : (Scene.Xml.elem n a t k).attr? "verMajor".toList = some (natText major) := by
    show (a.find? (fun p => p.1 == "verMajor".toList)).map (·.2) = _
    have := find a _ hn h1
    simp only at this
    rw [this]
    rfl
  have a2 : (Scene.Xml.elem n a t k).attr? "verMinor".toList = some (natText minor) := by
    show (a.find? (fun p => p.1 == "verMinor".toList)).map (·.2) = _
    have := find a _ hn h2
    simp only at this
    rw [this]
    rfl
  have hap : ∀ (x : Exchange) (o : Obj), (x.append o).major = x.major ∧ (x.append o).minor = x.minor := by
    intro x o
    unfold Exchange.append
    split <;> exact ⟨rfl, rfl⟩
  unfold Exchange.read
  simp only
  rw [chars_bytes (octets_text (utf8Xml_octets _ hu)), Xml.read_tree _ hp, if_pos hl]
  simp only
  rw [utf8Xml_converts _ hu, if_neg (by decide), a1, a2, Option.getD_some, Option.getD_some, atoi_natText _ hm, atoi_natText _ hm']
  exact ⟨_, rfl, version_of _ major minor (hap _ _).1 (hap _ _).2 hm hm'⟩

/-- **C86 is violated** for the program that has written the file: two files that differ only in the provider are read alike. -/
theorem C86_provider_violated (F : Fl) (w : Exchange) (h : Ordinary w) (p v : Text) (hp : Clean p ∧ Utf8 p) (hv : Clean v ∧ Utf8 v)
    (hl : levels (write classes w.content) ≤ 98) (e : Exchange) :
    e.read F (some { w with provider := p, providerVersion := v }.describe) = e.read F (some w.describe) := by
  have h' : Ordinary { w with provider := p, providerVersion := v } := ⟨h.build, h.tidy, h.utf8, hp, hv⟩
  obtain ⟨k, h1, h2⟩ := doc_eq w
  obtain ⟨k', h1', h2'⟩ := doc_eq { w with provider := p, providerVersion := v }
  have hk : k' = k := by
    have : write classes (Exchange.content { w with provider := p, providerVersion := v }) = write classes w.content := rfl
    rw [this, h1] at h1'
    injection h1' with _ _ _ hk
    exact hk.symm
  subst hk
  unfold Exchange.read
  simp only
  rw [describe_read h, describe_read h', if_pos hl,
    if_pos (show levels (write classes (Exchange.content { w with provider := p, providerVersion := v })) ≤ 98 from hl)]
  simp only
  rw [utf8Xml_converts _ (doc_utf8 h), utf8Xml_converts _ (doc_utf8 h'), if_neg (by decide), if_neg (by decide), h2, h2']
  have a1 : ∀ (w : Exchange) (s : Text), s = "verMajor".toList ∨ s = "verMinor".toList →
      (Scene.Xml.elem "GeneralSceneDescription".toList w.rootAttrs [] k').attr? s =
      (Scene.Xml.elem "GeneralSceneDescription".toList (Exchange.rootAttrs {}) [] k').attr? s := by
    intro w s hs
    rcases hs with rfl | rfl <;> rfl
  rw [a1 w _ (.inl rfl), a1 w _ (.inr rfl), a1 _ _ (.inl rfl), a1 _ _ (.inr rfl),
    read_root F "GeneralSceneDescription".toList "GeneralSceneDescription".toList w.rootAttrs
      (Exchange.rootAttrs { w with provider := p, providerVersion := v }) [] k']

/-- **C86 is violated** by deep scenes: with more than 98 levels of nodes nothing is read at all. -/
theorem C86_deep_violated (F : Fl) (w : Exchange) (h : Ordinary w) (hl : 98 < levels (write classes w.content)) (e : Exchange) :
    e.read F (some w.describe) = some e := by
  unfold Exchange.read
  simp only
  rw [describe_read h, if_neg (by omega)]

/-- **C86 is violated** by damaged descriptions: if a description is cut off, or is not XML for another reason, opening the file is
reported to have succeeded, and the object has what it had before, with the version of the file before. -/
theorem C86_damaged_violated (F : Fl) (xml : List Byte)
    (hx : (∃ w Q, Ordinary w ∧ Q ≠ [] ∧ w.describe = xml ++ Q) ∨ readBuffer (charsOf xml) = none)
    {codec : Zip.Codec} (hcodec : Zip.Spec.Lossless codec) (fuel : Nat) (stamps : Nat → Pack.Stamp)
    (W : List (List Char)) (hW : ∀ q ∈ W, Path.Spec.Plain q) (fs : Pack.Fs)
    (p : Pack.Spec.Place) (hp : p.Usual) (hdir : fs.dir (Path.Spec.folderText p.folders) = true)
    (hfit : Pack.Spec.Fits codec true [(Pack.descName, xml)]) (hf : 2 ≤ fuel) :
    ∃ o o' fs1, (({} : Pack.Mvr)).openWrite p.text = (.noError, o) ∧
      o.close codec fuel stamps fs xml [] = .ok (.noError, o', fs1) ∧
      ∀ (stale : Byte) (garbage : Zip.FileInfo) (o0 : Pack.Mvr) (e : Exchange) (later : Pack.Fs),
        later.file p.text = fs1.file p.text → later.dir (Path.Spec.folderText W) = true →
        ∃ r fs2, o0.openRead codec fuel stale garbage ([] :: W) later p.text = .ok (.noError, r, fs2) ∧ e.read F r.desc = some e := by
  have hn : readBuffer (charsOf xml) = none := by
    rcases hx with ⟨w, Q, hw, hQ, hd⟩ | hx
    · have ho := chars_bytes (octets_text (utf8Xml_octets _ (doc_utf8 hw)))
      have e1 : writeXmlText w.doc = charsOf xml ++ charsOf Q := by
        rw [← ho, show bytesOf (writeXmlText w.doc) = xml ++ Q from hd]
        simp [charsOf]
      have hv := Xml.ofXml_valid _ (doc_plain hw)
      obtain ⟨k, -, h2⟩ := doc_eq w
      rw [h2] at hv e1
      rw [Xml.ofXml] at hv
      exact Xml.C58_truncated _ _ _ hv _ (charsOf Q) (by unfold writeXmlText at e1; rw [Xml.ofXml] at e1; exact e1)
        (by simpa [charsOf] using hQ)
    · exact hx
  obtain ⟨o, o', fs1, h1, h2, -, -, -, h3⟩ :=
    Pack.C77_any_reader_partial hcodec fuel stamps W hW fs [] (by simp) [] (by simp) (by simp [Pack.Spec.OneCase]) p hp hdir xml
      hfit (by simpa using hf)
  refine ⟨o, o', fs1, h1, h2, ?_⟩
  intro stale garbage o0 e later hlater hd
  obtain ⟨r, fs2, r1, r2, -⟩ := h3 stale garbage o0 later hlater hd
  refine ⟨r, fs2, r1, ?_⟩
  rw [r2]
  unfold Exchange.read
  simp only
  rw [hn]

/-- **C86 is violated** when one object opens two files: it holds the layers of both. -/
theorem C86_second_violated (F : Fl) (w v : Exchange) (hw : Ordinary w) (hv : Ordinary v) (hlw : levels (write classes w.content) ≤ 98)
    (hlv : levels (write classes v.content) ≤ 98) :
    ∃ r s, Exchange.read F {} (some w.describe) = some r ∧ r.read F (some v.describe) = some s ∧ s.layers.length = w.layers.length + v.layers.length ∧
      s.userData.length = w.userData.length + v.userData.length := by
  have len : ∀ {a b : List Obj}, SameList a b → a.length = b.length := by
    intro a
    induction a with
    | nil => intro b h; cases b with | nil => rfl | cons _ _ => simp [SameList] at h
    | cons x a ih =>
      intro b h
      cases b with
      | nil => simp [SameList] at h
      | cons y b => rw [SameList] at h; rw [List.length_cons, List.length_cons, ih h.2]
  have keep : ∀ (a : List Obj), (∀ o ∈ a, o.cls ≠ "SceneDataGroupObj") → (pruneList a).length = a.length := by
    intro a ha
    induction a with
    | nil => rfl
    | cons x a ih =>
      have hx : ¬ EmptyGroup x := by
        intro he
        have := ha x (by simp)
        cases x
        exact this he.1
      rw [pruneList, if_neg hx, List.length_cons, List.length_cons, ih (fun o ho => ha o (by simp [ho]))]
  have classes_of : ∀ x : Exchange, Ordinary x → (∀ o ∈ x.layers, o.cls = "SceneDataLayerObj") ∧ ∀ o ∈ x.userData, o.cls = "SceneDataProviderObj" := by
    intro x hx
    have row1 : ∀ k ∈ kinds, k.cls = "SceneDataExchange" → k.members = [many "fProviderObjs" ["SceneDataProviderObj"], exactlyOne "Scene" "Exchange.Scene"] := by
      decide +kernel
    have row2 : ∀ k ∈ kinds, k.cls = "Exchange.Scene" → k.members = [many "fChildObjs" ["SceneDataLayerObj"], exactlyOne "AUXData" "Exchange.AUXData"] := by
      decide +kernel
    have hb := hx.build
    unfold Exchange.content at hb
    generalize hc : "SceneDataExchange" = c at hb
    cases hb with
    | mk k _ _ hk hv hg hn hf hb =>
      rw [row1 k hk hc.symm] at hf
      have h1 := hf (many "fProviderObjs" ["SceneDataProviderObj"], x.userData) (by simp)
      have hs := hb [.mk "Exchange.Scene" [] [x.layers, [.mk "Exchange.AUXData" [] [x.mapDefs, x.positions, x.symDefs]]]] (by simp) _
        (List.mem_singleton.2 rfl)
      generalize hc2 : "Exchange.Scene" = c2 at hs
      cases hs with
      | mk k2 _ _ hk2 hv2 hg2 hn2 hf2 hb2 =>
        rw [row2 k2 hk2 hc2.symm] at hf2
        have h2 := hf2 (many "fChildObjs" ["SceneDataLayerObj"], x.layers) (by simp)
        exact ⟨fun o ho => by simpa [many] using h2.1 o ho, fun o ho => by simpa [many] using h1.1 o ho⟩
  obtain ⟨r, r1, r2⟩ := (C86_description_partial F w hw hlw).1 {}
  obtain ⟨s, s1, s2⟩ := (C86_description_partial F v hv hlv).1 r
  refine ⟨r, s, r1, s1, ?_, ?_⟩
  · obtain ⟨l, l1, l2⟩ := r2.layers
    obtain ⟨m, m1, m2⟩ := s2.layers
    rw [m1, l1, List.nil_append, List.length_append, ← len l2, ← len m2, keep _ (fun o ho => by rw [(classes_of w hw).1 o ho]; decide),
      keep _ (fun o ho => by rw [(classes_of v hv).1 o ho]; decide)]
  · obtain ⟨l, l1, l2⟩ := r2.userData
    obtain ⟨m, m1, m2⟩ := s2.userData
    rw [m1, l1, List.nil_append, List.length_append, ← len l2, ← len m2, keep _ (fun o ho => by rw [(classes_of w hw).2 o ho]; decide),
      keep _ (fun o ho => by rw [(classes_of v hv).2 o ho]; decide)]

/-- **C86 is violated** by other documents: the name of the root node does not matter. -/
theorem C86_any_root_violated (F : Fl) (w : Exchange) (h : Ordinary w) (hl : levels (write classes w.content) ≤ 98)
    (n : Text) (hn : Name n) (hu : Utf8 n) (e : Exchange) :
    ∃ k, w.doc = .elem "GeneralSceneDescription".toList w.rootAttrs [] k ∧
      e.read F (some (bytesOf (writeXmlText (.elem n w.rootAttrs [] k)))) = e.read F (some w.describe) := by
  obtain ⟨k, h1, h2⟩ := doc_eq w
  refine ⟨k, h2, ?_⟩
  have hp := doc_plain h
  have hx := doc_utf8 h
  have hlv := doc_levels w
  rw [h2] at hp hx hlv
  have hp' : Plain (.elem n w.rootAttrs [] k) := by rw [Plain] at hp ⊢; exact ⟨hn, hp.2⟩
  have hx' : Utf8Xml (.elem n w.rootAttrs [] k) := by rw [Utf8Xml] at hx ⊢; exact ⟨hu, hx.2⟩
  have hl' : levels (Scene.Xml.elem n w.rootAttrs [] k) ≤ 98 := by rw [levels] at hlv ⊢; omega
  unfold Exchange.read
  simp only
  rw [describe_read h, if_pos hl, chars_bytes (octets_text (utf8Xml_octets _ hx')), Xml.read_tree _ hp', if_pos hl', h2]
  simp only
  rw [utf8Xml_converts _ hx, utf8Xml_converts _ hx', read_root F n "GeneralSceneDescription".toList w.rootAttrs w.rootAttrs [] k]
  rfl

/-! ### A scene that meets the hypotheses -/

mutual
/-- A check for `Utf8Tree`: all texts are ASCII. -/
def ascB : Obj → Bool
  | .mk _ vs ks => vs.all (fun | .text t => t.all (fun c => decide (Asc c)) | .command fn _ _ => fn.all (fun c => decide (Asc c)) | _ => true) && ascKidsB ks

/-- A check for `Utf8Kids`. -/
def ascKidsB : List (List Obj) → Bool
  | [] => true
  | k :: ks => ascListB k && ascKidsB ks

/-- A check for `Utf8List`. -/
def ascListB : List Obj → Bool
  | [] => true
  | o :: os => ascB o && ascListB os
end

mutual
theorem ascB_sound : ∀ o : Obj, ascB o = true → Utf8Tree o
  | .mk c vs ks, h => by
    rw [ascB, Bool.and_eq_true, List.all_eq_true] at h
    rw [Utf8Tree]
    refine ⟨fun v hv => ?_, ascKidsB_sound ks h.2⟩
    have := h.1 v hv
    cases v <;> simp only [Utf8Val] at this ⊢ <;> exact ascii_utf8 (by simpa using this)
theorem ascKidsB_sound : ∀ ks : List (List Obj), ascKidsB ks = true → Utf8Kids ks
  | [], _ => by rw [Utf8Kids]; trivial
  | k :: ks, h => by
    rw [ascKidsB, Bool.and_eq_true] at h
    rw [Utf8Kids]
    exact ⟨ascListB_sound k h.1, ascKidsB_sound ks h.2⟩
theorem ascListB_sound : ∀ k : List Obj, ascListB k = true → Utf8List k
  | [], _ => by rw [Utf8List]; trivial
  | o :: os, h => by
    rw [ascListB, Bool.and_eq_true] at h
    rw [Utf8List]
    exact ⟨ascB_sound o h.1, ascListB_sound os h.2⟩
end

/-- The scene of the examples of C65. -/
def sample : Exchange :=
  match example1 with
  | .mk _ _ [us, [.mk _ _ [ls, [.mk _ _ [ds, ps, ss]]]]] => ⟨"Vendor".toList, "2.0".toList, us, ls, ds, ps, ss, 0, 0⟩
  | _ => {}

theorem sample_content : sample.content = example1 := rfl

theorem sample_ordinary : Ordinary sample where
  build := by rw [sample_content]; exact example1_build
  tidy := by rw [sample_content]; exact example1_clean
  utf8 := by rw [sample_content]; exact ascB_sound _ (by decide +kernel)
  provider := ⟨by decide, ascii_utf8 (by decide)⟩
  providerVersion := ⟨by decide, ascii_utf8 (by decide)⟩

theorem sample_levels : levels (write classes sample.content) ≤ 98 := by rw [sample_content]; exact example1_levels

example (F : Fl) (e : Exchange) : ∃ r, Exchange.read F e (some sample.describe) = some r ∧ Gained e sample r :=
  (C86_description_partial F sample sample_ordinary sample_levels).1 e

example (F : Fl) (e : Exchange) : e.read F (some { sample with provider := [], providerVersion := "ü".toList.map (fun _ => 'u') }.describe) =
    e.read F (some sample.describe) :=
  C86_provider_violated F sample sample_ordinary _ _ ⟨by decide, utf8_nil⟩ ⟨by decide, ascii_utf8 (by decide)⟩ sample_levels e

example (F : Fl) : ∃ r s, Exchange.read F {} (some sample.describe) = some r ∧ r.read F (some sample.describe) = some s ∧
    s.layers.length = 2 ∧ s.userData.length = 2 :=
  C86_second_violated F sample sample sample_ordinary sample_ordinary sample_levels sample_levels

example (F : Fl) (e : Exchange) : ∃ k, sample.doc = .elem "GeneralSceneDescription".toList sample.rootAttrs [] k ∧
    e.read F (some (bytesOf (writeXmlText (.elem "GDTF".toList sample.rootAttrs [] k)))) = e.read F (some sample.describe) :=
  C86_any_root_violated F sample sample_ordinary sample_levels _ (Xml.nameOk _ _ rfl (by decide) (by decide)) (ascii_utf8 (by decide)) e

theorem sample_length : sample.describe.length < 1000000 := by decide +kernel

/-- C86: the hypotheses of `C86_package_partial` are met by the scene with the files of C77. -/
example (F : Fl) (stamps : Nat → Pack.Stamp) :=
  C86_package_partial F sample sample_ordinary sample_levels (codec := Pack.sampleCodec) (fun _ => rfl) 8 stamps Pack.sampleW (by decide +kernel)
    Pack.sampleFs Pack.sampleCalls Pack.sample_usual ["Spot.gdtf".toList, "Wash.gdtf".toList] (by decide +kernel)
    (by unfold Pack.Spec.OneCase; decide +kernel) ⟨["out".toList], "scene.mvr".toList⟩ ⟨by decide +kernel, by decide +kernel⟩ (by decide +kernel)
    (Pack.mvr_sample_fits _ sample_length) (by decide +kernel)

/-- C86: and those of `C86_damaged_violated` by the first half of it. -/
example (F : Fl) (stamps : Nat → Pack.Stamp) :=
  C86_damaged_violated F (sample.describe.take 500)
    (.inl ⟨sample, sample.describe.drop 500, sample_ordinary, by decide +kernel, (List.take_append_drop 500 _).symm⟩)
    (codec := Pack.sampleCodec) (fun _ => rfl) 8 stamps Pack.sampleW (by decide +kernel) Pack.sampleFs
    ⟨["out".toList], "scene.mvr".toList⟩ ⟨by decide +kernel, by decide +kernel⟩ (by decide +kernel)
    (Pack.sample_fits_alone _ (by have := List.length_take_le 500 sample.describe; omega)) (by decide)

/-- Groups in groups. -/
def nest : Nat → Obj
  | 0 => .mk "SceneDataGroupObj" [.uuid (List.replicate 16 3), .text []]
      (plainMembers .identity ++ [[.mk "SceneDataFocusPointObj" [.uuid (List.replicate 16 4), .text []] (plainMembers .identity ++ [[]])]])
  | n + 1 => .mk "SceneDataGroupObj" [.uuid (List.replicate 16 3), .text []] (plainMembers .identity ++ [[nest n]])

/-- A scene with fifty of them. -/
def deepScene : Exchange :=
  { layers := [.mk "SceneDataLayerObj" [.uuid (List.replicate 16 1), .text []] (plainMembers .identity ++ [[nest 49]])] }

/-- C86: the hypotheses of `C86_deep_violated` are met by fifty groups inside of each other. -/
example (F : Fl) (e : Exchange) : e.read F (some deepScene.describe) = some e :=
  C86_deep_violated F deepScene ⟨buildB_sound _ (by decide +kernel), by decide +kernel, ascB_sound _ (by decide +kernel), ⟨by decide, utf8_nil⟩,
    ⟨by decide, utf8_nil⟩⟩ (by decide +kernel) e

/-- C86: a file of an older version. -/
example (F : Fl) (e : Exchange) : ∃ r, e.read F (some (bytesOf (writeXmlText (.elem "GeneralSceneDescription".toList
    [("verMinor".toList, natText 4), ("verMajor".toList, natText 1)] [] [])))) = some r ∧ r.version = (1, 4) :=
  C86_version F e _ _ _ _ 1 4
    (by
      rw [Plain]
      refine ⟨Xml.nameOk _ _ rfl (by decide) (by decide), ?_, by decide, by decide, .inl rfl, trivial⟩
      intro a ha
      simp only [List.mem_cons, List.not_mem_nil, or_false] at ha
      rcases ha with rfl | rfl <;> exact ⟨Xml.nameOk _ _ rfl (by decide) (by decide), by decide +kernel⟩)
    (by
      rw [Utf8Xml]
      refine ⟨ascii_utf8 (by decide), ?_, utf8_nil, trivial⟩
      intro a ha
      simp only [List.mem_cons, List.not_mem_nil, or_false] at ha
      rcases ha with rfl | rfl <;> exact ⟨ascii_utf8 (by decide), ascii_utf8 (by decide +kernel)⟩)
    (by simp [levels]) (by simp) (by simp) (by decide) (by decide)

end Verif.Mvr
