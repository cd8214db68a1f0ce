import Verif.Mvr.SceneSpec
import Verif.Mvr.Kinds
import Verif.Gdtf.FileLemmas

/-!
# Lemmas about the description of an MVR scene
-/

namespace Verif.Mvr

open Verif.Str Verif.Text Verif.Real Verif.Dmx Spec Verif.UnicodeSpec
open Verif.Gdtf (charsOf bytesOf attrIn Octets OctetXml OctetXmls chars_small chars_bytes bytes_chars octets_text char_small fromBytes_utf8)
open Verif.Xml (readBuffer writeXmlText)
open Verif.Xml.Spec (Clean Name Plain Plains levels)

/-! ### Texts -/

theorem utf8_converts {t : Text} (h : Utf8 t) : (attrIn t).isSome = true := by
  obtain ⟨cs, hcs, rfl⟩ := h
  show (attrIn (charsOf (cs.flatMap utf8))).isSome = true
  unfold attrIn
  rw [bytes_chars, fromBytes_utf8 cs hcs _ (by simp [charsOf])]
  rfl

theorem utf8_octets {t : Text} (h : Utf8 t) : Octets t := by
  obtain ⟨cs, _, rfl⟩ := h
  exact chars_small _

theorem utf8_append {s t : Text} (hs : Utf8 s) (ht : Utf8 t) : Utf8 (s ++ t) := by
  obtain ⟨a, ha, rfl⟩ := hs
  obtain ⟨b, hb, rfl⟩ := ht
  refine ⟨a ++ b, ?_, by simp⟩
  intro c hc
  rcases List.mem_append.1 hc with hc | hc
  · exact ha c hc
  · exact hb c hc

/-- ASCII. -/
def Asc (c : Char) : Prop := c.toNat < 128

instance (c : Char) : Decidable (Asc c) := by unfold Asc; infer_instance

theorem ascii_utf8 {t : Text} (h : ∀ c ∈ t, Asc c) : Utf8 t := by
  refine ⟨t.map Char.toNat, ?_, ?_⟩
  · intro c hc
    obtain ⟨x, hx, rfl⟩ := List.mem_map.1 hc
    have : x.toNat < 128 := h x hx
    refine ⟨?_, ?_⟩ <;> omega
  · induction t with
    | nil => rfl
    | cons c t ih =>
      have hc : c.toNat < 128 := h c (by simp)
      have e : utf8 c.toNat = [BitVec.ofNat 8 c.toNat] := by unfold utf8; rw [if_pos hc]
      rw [List.map_cons, List.flatMap_cons, e, List.map_append, ← ih (fun x hx => h x (by simp [hx]))]
      have : (BitVec.ofNat 8 c.toNat).toNat = c.toNat := by rw [BitVec.toNat_ofNat]; exact Nat.mod_eq_of_lt (by omega)
      simp [this]

theorem asc_digit {c : Char} (h : isDigit c = true) : Asc c := by
  simp only [isDigit, Bool.and_eq_true, decide_eq_true_eq] at h
  have e1 : c.toNat ≤ 57 := h.2
  unfold Asc; omega

theorem asc_real (x : Dbl) : ∀ c ∈ printReal x, Asc c := by
  intro c hc
  rcases printReal_chars x c hc with h | h | h
  · exact asc_digit h
  · subst h; decide
  · subst h; decide

theorem asc_join : ∀ (l : List (List Char)), (∀ t ∈ l, ∀ c ∈ t, Asc c) → ∀ c ∈ joinComma l, Asc c
  | [], _, c, hc => by cases hc
  | [a], h, c, hc => h a (by simp) c hc
  | a :: b :: t, h, c, hc => by
    rw [joinComma] at hc
    rcases List.mem_append.1 hc with hc | hc
    · exact h a (by simp) c hc
    · rcases List.mem_cons.1 hc with hc | hc
      · subst hc; decide
      · exact asc_join (b :: t) (fun x hx => h x (by simp [List.mem_cons.1 hx])) c hc

theorem asc_group (l : List (List Char)) (h : ∀ t ∈ l, ∀ c ∈ t, Asc c) : ∀ c ∈ group l, Asc c := by
  intro c hc
  unfold group at hc
  rcases List.mem_cons.1 hc with hc | hc
  · subst hc; decide
  · rcases List.mem_append.1 hc with hc | hc
    · exact asc_join l h c hc
    · rw [List.mem_singleton] at hc; subst hc; decide

theorem asc_three (v : V3) : ∀ t ∈ [printReal v.x, printReal v.y, printReal v.z], ∀ c ∈ t, Asc c := by
  intro t ht
  simp only [List.mem_cons, List.not_mem_nil, or_false] at ht
  rcases ht with rfl | rfl | rfl <;> exact asc_real _

theorem asc_int (i : Int) : ∀ c ∈ intText i, Asc c := by
  intro c hc
  unfold intText at hc
  split at hc
  · rcases List.mem_cons.1 hc with hc | hc
    · subst hc; decide
    · exact asc_digit (natText_digits _ c hc)
  · exact asc_digit (natText_digits _ c hc)

theorem asc_uuid (u : Scene.Uuid) : ∀ c ∈ Uuid.convertToText u, Asc c := by
  have hb : ∀ b : Byte, ∀ c ∈ Uuid.getPieceAsText b, Asc c := by decide +kernel
  intro c hc
  unfold Uuid.convertToText Uuid.toText at hc
  rw [List.mem_flatten] at hc
  obtain ⟨l, hl, hc⟩ := hc
  have hd : Asc '-' := by decide
  simp only [Bool.false_eq_true, if_false, List.mem_cons, List.not_mem_nil, or_false] at hl
  rcases hl with rfl | rfl | rfl | rfl | rfl | rfl | rfl | rfl | rfl | rfl | rfl | rfl | rfl | rfl | rfl | rfl | rfl | rfl | rfl | rfl | rfl | rfl
  all_goals first
    | exact hb _ _ hc
    | (cases hc; done)
    | (rw [List.mem_singleton] at hc; subst hc; exact hd)

theorem enc_utf8 (c : Codec) (v : Val) (t : Text) (he : enc c v = some t) (h : Utf8Val v) : Utf8 t := by
  have hi : ∀ i : Int, Utf8 (writeInteger i) := fun i => ascii_utf8 (asc_int i)
  cases c <;> cases v <;> simp only [enc, Option.some.injEq, reduceCtorEq] at he
  case optText.text t' =>
    split at he
    · cases he
    · cases he; exact h
  case text.text t' => subst he; exact h
  case uuid.uuid u => subst he; exact ascii_utf8 (asc_uuid u)
  case command.command fn b x =>
    subst he
    unfold writeCommand
    refine utf8_append (utf8_append h ?_) (ascii_utf8 (asc_real x))
    cases b <;> exact ascii_utf8 (by decide)
  case sint.int i => subst he; exact hi _
  case uint32.int i => subst he; exact hi _
  case size.int i => subst he; exact hi _
  case sizeAs32.int i => subst he; exact hi _
  case sizeFrom32.int i => subst he; exact hi _
  case flag.flag b => subst he; cases b <;> exact ascii_utf8 (by decide)
  case real.real x => subst he; exact ascii_utf8 (asc_real x)
  case vec.vec w => subst he; exact ascii_utf8 (asc_group _ (asc_three w))
  case color.color w =>
    subst he
    apply ascii_utf8
    intro c hc
    unfold writeColor at hc
    rcases List.mem_append.1 hc with hc | hc
    · exact asc_real _ c hc
    · rcases List.mem_cons.1 hc with hc | hc
      · subst hc; decide
      · rcases List.mem_append.1 hc with hc | hc
        · exact asc_real _ c hc
        · rcases List.mem_cons.1 hc with hc | hc
          · subst hc; decide
          · exact asc_real _ c hc
  case matrix.matrix m =>
    subst he
    apply ascii_utf8
    intro c hc
    unfold writeMatrixMvr at hc
    obtain ⟨l, hl, hc⟩ := List.mem_flatten.1 hc
    simp only [List.mem_cons, List.not_mem_nil, or_false] at hl
    rcases hl with rfl | rfl | rfl | rfl <;> exact asc_group _ (asc_three _) c hc
  case source.source s => subst he; cases s <;> exact ascii_utf8 (by decide)
  case scale.scale s => subst he; cases s <;> exact ascii_utf8 (by decide)
  case transmission.transmission s => subst he; cases s <;> exact ascii_utf8 (by decide)

/-! ### Documents -/

mutual
theorem utf8Xml_converts : ∀ x : Xml, Utf8Xml x → converts x = true
  | .elem n a t k, h => by
    rw [Utf8Xml] at h
    rw [converts]
    simp only [Bool.and_eq_true, List.all_eq_true]
    exact ⟨⟨⟨utf8_converts h.1, fun p hp => ⟨utf8_converts (h.2.1 p hp).1, utf8_converts (h.2.1 p hp).2⟩⟩, utf8_converts h.2.2.1⟩,
      utf8Xmls_converts k h.2.2.2⟩
theorem utf8Xmls_converts : ∀ k : List Xml, Utf8Xmls k → convertsAll k = true
  | [], _ => rfl
  | x :: r, h => by
    rw [Utf8Xmls] at h
    rw [convertsAll, utf8Xml_converts x h.1, utf8Xmls_converts r h.2]
    rfl
end

mutual
theorem utf8Xml_octets : ∀ x : Xml, Utf8Xml x → OctetXml x
  | .elem n a t k, h => by
    rw [Utf8Xml] at h
    rw [OctetXml]
    exact ⟨utf8_octets h.1, fun p hp => ⟨utf8_octets (h.2.1 p hp).1, utf8_octets (h.2.1 p hp).2⟩, utf8_octets h.2.2.1,
      utf8Xmls_octets k h.2.2.2⟩
theorem utf8Xmls_octets : ∀ k : List Xml, Utf8Xmls k → OctetXmls k
  | [], _ => by rw [OctetXmls]; trivial
  | x :: r, h => by
    rw [Utf8Xmls] at h
    rw [OctetXmls]
    exact ⟨utf8Xml_octets x h.1, utf8Xmls_octets r h.2⟩
end

theorem utf8Xmls_append {a b : List Xml} (ha : Utf8Xmls a) (hb : Utf8Xmls b) : Utf8Xmls (a ++ b) := by
  induction a with
  | nil => exact hb
  | cons x a ih =>
    rw [Utf8Xmls] at ha
    rw [List.cons_append, Utf8Xmls]
    exact ⟨ha.1, ih ha.2⟩

/-- The names of a class are ASCII. -/
def ascOk (c : Class) : Bool :=
  decide (∀ x ∈ c.node.toList, Asc x) && c.fields.all (fun f => match f.place with | .attr a => decide (∀ x ∈ a.toList, Asc x) | .own => true) &&
    c.slots.all (fun s => match s.wbox with | some b => decide (∀ x ∈ b.toList, Asc x) | none => true)

theorem asc_ok : ∀ c ∈ classes, ascOk c = true := by decide +kernel

theorem row_asc (cls : String) : ascOk (row classes cls) = true ∨ row classes cls = ⟨cls, "", [], [], .never⟩ := by
  unfold row
  cases h : classes.find? (fun c => c.name == cls) with
  | none => exact .inr rfl
  | some c => exact .inl (asc_ok c (List.mem_of_find?_eq_some h))

theorem row_asc' (cls : String) : ascOk (row classes cls) = true := by
  rcases row_asc cls with h | h
  · exact h
  · rw [h]; rfl

theorem attrs_utf8 : ∀ (fs : List Field) (vs : List Val), (∀ f ∈ fs, ∀ a, f.place = .attr a → ∀ x ∈ a.toList, Asc x) →
    (∀ v ∈ vs, Utf8Val v) → ∀ p ∈ attrsOf fs vs, Utf8 p.1 ∧ Utf8 p.2
  | [], _, _, _, p, h => by simp [attrsOf] at h
  | f :: fs, [], _, _, p, h => by simp [attrsOf] at h
  | f :: fs, v :: vs, hf, hv, p, h => by
    rw [attrsOf] at h
    rcases List.mem_append.1 h with h | h
    · split at h
      · rename_i a t hp he
        rw [List.mem_singleton] at h
        rw [h]
        exact ⟨ascii_utf8 (hf f (by simp) a hp), enc_utf8 _ _ _ he (hv v (by simp))⟩
      · cases h
    · exact attrs_utf8 fs vs (fun g hg => hf g (by simp [hg])) (fun w hw => hv w (by simp [hw])) p h

theorem utf8_nil : Utf8 [] := ⟨[], by simp, rfl⟩

theorem text_utf8 : ∀ (fs : List Field) (vs : List Val), (∀ v ∈ vs, Utf8Val v) → Utf8 (textOf fs vs)
  | [], _, _ => by simp [textOf, utf8_nil]
  | f :: fs, [], _ => by simp [textOf, utf8_nil]
  | f :: fs, v :: vs, hv => by
    rw [textOf]
    split
    · rename_i t hp he
      exact enc_utf8 _ _ _ he (hv v (by simp))
    · exact text_utf8 fs vs (fun w hw => hv w (by simp [hw]))

mutual
theorem write_utf8 : ∀ o : Obj, Utf8Tree o → Utf8Xml (write classes o)
  | .mk cls vs ks, h => by
    rw [Utf8Tree] at h
    have hr := row_asc' cls
    unfold ascOk at hr
    simp only [Bool.and_eq_true, List.all_eq_true, decide_eq_true_eq] at hr
    rw [write, Utf8Xml]
    refine ⟨ascii_utf8 hr.1.1, attrs_utf8 _ _ ?_ h.1, text_utf8 _ _ h.1, writeSlots_utf8 _ ks ?_ h.2⟩
    · intro f hf a ha
      have := hr.1.2 f hf
      rw [ha] at this
      simpa using this
    · intro s hs b hb
      have := hr.2 s hs
      rw [hb] at this
      simpa using this
theorem writeSlots_utf8 : ∀ (ss : List Slot) (ks : List (List Obj)), (∀ s ∈ ss, ∀ b, s.wbox = some b → ∀ x ∈ b.toList, Asc x) →
    Utf8Kids ks → Utf8Xmls (writeSlots classes ss ks)
  | _, [], _, _ => by simp [writeSlots, Utf8Xmls]
  | [], k :: ks, _, _ => by simp [writeSlots, Utf8Xmls]
  | s :: ss, k :: ks, hs, h => by
    rw [Utf8Kids] at h
    rw [writeSlots]
    refine utf8Xmls_append ?_ (writeSlots_utf8 ss ks (fun t ht => hs t (by simp [ht])) h.2)
    have hk := writeList_utf8 k h.1
    unfold Slot.wrap
    split
    · exact hk
    · rename_i b hb
      split
      · simp [Utf8Xmls]
      · rw [Utf8Xmls, Utf8Xml]
        exact ⟨⟨ascii_utf8 (hs s (by simp) b hb), by simp, utf8_nil, hk⟩, by simp [Utf8Xmls]⟩
theorem writeList_utf8 : ∀ k : List Obj, Utf8List k → Utf8Xmls (writeList classes k)
  | [], _ => by simp [writeList, Utf8Xmls]
  | o :: os, h => by
    rw [Utf8List] at h
    rw [writeList]
    split
    · exact writeList_utf8 os h.2
    · rw [Utf8Xmls]
      exact ⟨write_utf8 o h.1, writeList_utf8 os h.2⟩
end

/-! ### The root -/

theorem write_content (e : Exchange) : ∃ k, write classes e.content = .elem "GeneralSceneDescription".toList [] [] k := by
  unfold Exchange.content
  rw [write]
  exact ⟨_, rfl⟩

theorem doc_eq (e : Exchange) : ∃ k, write classes e.content = .elem "GeneralSceneDescription".toList [] [] k ∧
    e.doc = .elem "GeneralSceneDescription".toList e.rootAttrs [] k := by
  obtain ⟨k, hk⟩ := write_content e
  refine ⟨k, hk, ?_⟩
  unfold Exchange.doc
  rw [hk]
  simp

theorem doc_plain {w : Exchange} (h : Ordinary w) : Plain w.doc := by
  obtain ⟨k, h1, h2⟩ := doc_eq w
  have hp := write_plain _ (build_tree h.build) (build_clean h.build h.tidy)
  rw [h1, Plain] at hp
  rw [h2, Plain]
  refine ⟨hp.1, ?_, (by decide : ["verMajor".toList, "verMinor".toList, "provider".toList, "providerVersion".toList].Nodup), hp.2.2.2.1, hp.2.2.2.2.1, hp.2.2.2.2.2⟩
  intro a ha
  simp only [Exchange.rootAttrs, List.mem_cons, List.not_mem_nil, or_false] at ha
  rcases ha with rfl | rfl | rfl | rfl
  · exact ⟨Xml.nameOk _ _ rfl (by decide) (by decide), graph_clean (int_graph majorVersion)⟩
  · exact ⟨Xml.nameOk _ _ rfl (by decide) (by decide), graph_clean (int_graph minorVersion)⟩
  · exact ⟨Xml.nameOk _ _ rfl (by decide) (by decide), h.provider.1⟩
  · exact ⟨Xml.nameOk _ _ rfl (by decide) (by decide), h.providerVersion.1⟩

theorem doc_utf8 {w : Exchange} (h : Ordinary w) : Utf8Xml w.doc := by
  obtain ⟨k, h1, h2⟩ := doc_eq w
  have hp := write_utf8 _ h.utf8
  rw [h1, Utf8Xml] at hp
  rw [h2, Utf8Xml]
  refine ⟨hp.1, ?_, hp.2.2.1, hp.2.2.2⟩
  intro a ha
  simp only [Exchange.rootAttrs, List.mem_cons, List.not_mem_nil, or_false] at ha
  rcases ha with rfl | rfl | rfl | rfl
  · exact ⟨ascii_utf8 (t := "verMajor".toList) (by decide), ascii_utf8 (asc_int majorVersion)⟩
  · exact ⟨ascii_utf8 (t := "verMinor".toList) (by decide), ascii_utf8 (asc_int minorVersion)⟩
  · exact ⟨ascii_utf8 (t := "provider".toList) (by decide), h.provider.2⟩
  · exact ⟨ascii_utf8 (t := "providerVersion".toList) (by decide), h.providerVersion.2⟩

theorem doc_levels (w : Exchange) : levels w.doc = levels (write classes w.content) := by
  obtain ⟨k, h1, h2⟩ := doc_eq w
  rw [h1, h2, levels, levels]

/-- The attributes and the name of the root node do not matter for the lists. -/
theorem read_root (F : Fl) (n n' : Text) (a a' : List (Text × Text)) (t : Text) (k : List Xml) :
    Mvr.read classes F "SceneDataExchange" (.elem n a t k) = Mvr.read classes F "SceneDataExchange" (.elem n' a' t k) := by
  unfold Mvr.read
  rw [depth, depth, Nat.add_comm, readTo, readTo]
  rfl

/-- What is read has the form of a scene. -/
theorem same_shape {w : Exchange} {o : Obj} (h : Same (prune w.content) o) : ∃ us ls ds ps ss,
    (∀ e : Exchange, e.append o = ⟨e.provider, e.providerVersion, e.userData ++ us, e.layers ++ ls, e.mapDefs ++ ds, e.positions ++ ps,
      e.symDefs ++ ss, e.major, e.minor⟩) ∧ SameList (pruneList w.userData) us ∧ SameList (pruneList w.layers) ls ∧
      SameList (pruneList w.mapDefs) ds ∧ SameList (pruneList w.positions) ps ∧ SameList (pruneList w.symDefs) ss := by
  have e1 : ∀ vs ks, ¬ EmptyGroup (.mk "Exchange.Scene" vs ks) := by intro vs ks h; unfold EmptyGroup at h; exact absurd h.1 (by decide)
  have e2 : ∀ vs ks, ¬ EmptyGroup (.mk "Exchange.AUXData" vs ks) := by intro vs ks h; unfold EmptyGroup at h; exact absurd h.1 (by decide)
  unfold Exchange.content at h
  simp only [prune, pruneAll, pruneList, e1, e2, if_false] at h
  match o, h with
  | .mk c vs ks, h =>
    rw [Same] at h
    obtain ⟨-, -, h⟩ := h
    match ks, h with
    | [us, [.mk _ _ ks2]], h =>
      simp only [SameAll, SameList, Same] at h
      obtain ⟨h1, ⟨⟨-, -, h⟩, -⟩, -⟩ := h
      match ks2, h with
      | [ls, [.mk _ _ ks3]], h =>
        simp only [SameAll, SameList, Same] at h
        obtain ⟨h2, ⟨⟨-, -, h⟩, -⟩, -⟩ := h
        match ks3, h with
        | [ds, ps, ss], h =>
          simp only [SameAll] at h
          exact ⟨us, ls, ds, ps, ss, fun e => rfl, h1, h2, h.1, h.2.1, h.2.2.1⟩

end Verif.Mvr
