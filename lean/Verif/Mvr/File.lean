import Verif.Mvr.Props
import Verif.Xml.Tree

/-!
# The bytes of the file of an MVR scene
-/

namespace Verif.Mvr

open Verif.Str Verif.Text Verif.Real Verif.Dmx Spec Inner
open Verif.Xml (readBuffer writeXmlText)
open Verif.Xml.Spec (Clean Blank Space Name Plain Plains levels)

/-! ### The texts of values -/

/-- A character that is neither white space nor null. -/
def Graph (c : Char) : Prop := ¬ Space c ∧ c ≠ '\x00'

instance (c : Char) : Decidable (Graph c) := by unfold Graph; infer_instance

theorem graph_clean {t : Text} (h : ∀ c ∈ t, Graph c) : Clean t := by
  refine ⟨fun hc => (h _ hc).1 ?_, fun hc => (h _ hc).2 rfl⟩
  unfold Space; simp

theorem graph_solid {t : Text} (h : ∀ c ∈ t, Graph c) (hn : t ≠ []) : ¬ Blank t := by
  cases t with
  | nil => exact absurd rfl hn
  | cons c r => exact fun hb => (h c (by simp)).1 (hb c (by simp))

theorem digit_graph {c : Char} (h : isDigit c = true) : Graph c := by
  have h1 : '0' ≤ c ∧ c ≤ '9' := by simpa [isDigit] using h
  constructor
  · intro hs
    rcases hs with h | h | h | h | h | h <;> (subst h; revert h1; decide)
  · intro h; subst h; revert h1; decide

theorem real_graph (x : Dbl) : ∀ c ∈ printReal x, Graph c := by
  intro c hc
  rcases printReal_chars x c hc with h | h | h
  · exact digit_graph h
  · subst h; decide
  · subst h; decide

theorem join_graph : ∀ (l : List (List Char)), (∀ t ∈ l, ∀ c ∈ t, Graph c) → ∀ c ∈ joinComma l, Graph c
  | [], _, c, hc => by cases hc
  | [a], h, c, hc => h a (by simp) c hc
  | a :: b :: t, h, c, hc => by
    rw [joinComma] at hc
    rcases List.mem_append.1 hc with hc | hc
    · exact h a (by simp) c hc
    · rcases List.mem_cons.1 hc with hc | hc
      · subst hc; decide
      · exact join_graph (b :: t) (fun x hx => h x (by simp [List.mem_cons.1 hx])) c hc

theorem group_graph (l : List (List Char)) (h : ∀ t ∈ l, ∀ c ∈ t, Graph c) : ∀ c ∈ group l, Graph c := by
  intro c hc
  unfold group at hc
  rcases List.mem_cons.1 hc with hc | hc
  · subst hc; decide
  · rcases List.mem_append.1 hc with hc | hc
    · exact join_graph l h c hc
    · rw [List.mem_singleton] at hc; subst hc; decide

theorem three_graph (v : V3) : ∀ t ∈ [printReal v.x, printReal v.y, printReal v.z], ∀ c ∈ t, Graph c := by
  intro t ht
  simp only [List.mem_cons, List.not_mem_nil, or_false] at ht
  rcases ht with rfl | rfl | rfl <;> exact real_graph _

theorem int_graph (i : Int) : ∀ c ∈ intText i, Graph c := by
  intro c hc
  unfold intText at hc
  split at hc
  · rcases List.mem_cons.1 hc with hc | hc
    · subst hc; decide
    · exact digit_graph (natText_digits _ c hc)
  · exact digit_graph (natText_digits _ c hc)

/-- Texts written for anything but texts and commands. -/
theorem solid {p : Place} {t : Text} (h : ∀ c ∈ t, Graph c) (hn : t ≠ []) : Clean t ∧ (p = .own → t = [] ∨ ¬ Blank t) :=
  ⟨graph_clean h, fun _ => .inr (graph_solid h hn)⟩

theorem command_clean {p : Place} {fn : Text} (b : Bool) (x : Dbl) (h : Clean fn) :
    Clean (writeCommand fn b x) ∧ (p = .own → writeCommand fn b x = [] ∨ ¬ Blank (writeCommand fn b x)) := by
  have hx := graph_clean (real_graph x)
  have hm : Clean (if b then "/percent,f ".toList else ",f ".toList) := by
    cases b <;> (unfold Clean; decide)
  unfold writeCommand
  refine ⟨⟨?_, ?_⟩, fun _ => .inr fun hb => ?_⟩
  · simp only [List.mem_append, not_or]; exact ⟨⟨h.1, hm.1⟩, hx.1⟩
  · simp only [List.mem_append, not_or]; exact ⟨⟨h.2, hm.2⟩, hx.2⟩
  · have hb' : Blank (printReal x) := fun c hc => hb c (List.mem_append.2 (.inr hc))
    exact graph_solid (real_graph x) (printReal_ne_nil x) hb'

theorem enc_clean (p : Place) (c : Codec) (v : Val) (t : Text) (he : enc c v = some t) (h : CleanVal p v) :
    Clean t ∧ (p = .own → t = [] ∨ ¬ Blank t) := by
  have hi : ∀ i : Int, Clean (writeInteger i) ∧ (p = .own → writeInteger i = [] ∨ ¬ Blank (writeInteger i)) :=
    fun i => solid (int_graph i) (intText_ne_nil i)
  cases c <;> cases v <;> simp only [enc, Option.some.injEq, reduceCtorEq] at he
  case optText.text t' =>
    split at he
    · cases he
    · cases he; exact h
  case text.text t' => subst he; exact h
  case uuid.uuid u =>
    subst he
    exact ⟨(Xml.uuidText_clean u).1, fun _ => .inr (Xml.uuidText_clean u).2⟩
  case command.command fn b x => subst he; exact command_clean b x h
  case sint.int i => subst he; exact hi _
  case uint32.int i => subst he; exact hi _
  case size.int i => subst he; exact hi _
  case sizeAs32.int i => subst he; exact hi _
  case sizeFrom32.int i => subst he; exact hi _
  case flag.flag b => subst he; cases b <;> exact solid (by decide) (by decide)
  case real.real x => subst he; exact solid (real_graph x) (printReal_ne_nil x)
  case vec.vec w => subst he; exact solid (group_graph _ (three_graph w)) (by simp [writeVector, group])
  case color.color w =>
    subst he
    refine solid ?_ (by simp [writeColor])
    intro c hc
    unfold writeColor at hc
    rcases List.mem_append.1 hc with hc | hc
    · exact real_graph _ c hc
    · rcases List.mem_cons.1 hc with hc | hc
      · subst hc; decide
      · rcases List.mem_append.1 hc with hc | hc
        · exact real_graph _ c hc
        · rcases List.mem_cons.1 hc with hc | hc
          · subst hc; decide
          · exact real_graph _ c hc
  case matrix.matrix m =>
    subst he
    refine solid ?_ (by simp [writeMatrixMvr, group])
    intro c hc
    unfold writeMatrixMvr at hc
    obtain ⟨l, hl, hc⟩ := List.mem_flatten.1 hc
    simp only [List.mem_cons, List.not_mem_nil, or_false] at hl
    rcases hl with rfl | rfl | rfl | rfl <;> exact group_graph _ (three_graph _) c hc
  case source.source s => subst he; cases s <;> exact solid (by decide) (by decide)
  case scale.scale s => subst he; cases s <;> exact solid (by decide) (by decide)
  case transmission.transmission s => subst he; cases s <;> exact solid (by decide) (by decide)

/-! ### The nodes -/

/-- The names of a class are names of XML. -/
def namesOk (c : Class) : Bool :=
  nameB c.node && c.fields.all (fun f => match f.place with | .attr a => nameB a | .own => true) &&
    c.slots.all (fun s => match s.wbox with | some b => nameB b | none => true)
where
  /-- A name of XML. -/
  nameB (s : String) : Bool :=
    match s.toList with
    | [] => false
    | c :: r => Xml.isNameStart c && r.all Xml.isNameChar

theorem nameB_name {s : String} (h : namesOk.nameB s = true) : Name s.toList := by
  unfold namesOk.nameB at h
  split at h
  · cases h
  · rename_i c r hs
    rw [Bool.and_eq_true] at h
    exact Xml.nameOk c r hs h.1 h.2

theorem names_ok : ∀ c ∈ classes, namesOk c = true := by decide +kernel

theorem attrs_mem : ∀ (fs : List Field) (vs : List Val) (x : Text × Text), x ∈ attrsOf fs vs →
    ∃ f ∈ fs, ∃ a, f.place = .attr a ∧ x.1 = a.toList
  | [], _, x, h => by simp [attrsOf] at h
  | f :: fs, [], x, h => by simp [attrsOf] at h
  | f :: fs, v :: vs, x, h => by
    rw [attrsOf] at h
    rcases List.mem_append.1 h with h | h
    · split at h
      · rename_i a t hp _
        rw [List.mem_singleton] at h
        exact ⟨f, by simp, a, hp, by rw [h]⟩
      · cases h
    · obtain ⟨g, hg, r⟩ := attrs_mem fs vs x h
      exact ⟨g, by simp [hg], r⟩

theorem attrs_clean : ∀ (fs : List Field) (vs : List Val), CleanVals fs vs → ∀ x ∈ attrsOf fs vs, Clean x.2
  | [], _, _, x, h => by simp [attrsOf] at h
  | f :: fs, [], _, x, h => by simp [attrsOf] at h
  | f :: fs, v :: vs, hc, x, h => by
    rw [CleanVals] at hc
    rw [attrsOf] at h
    rcases List.mem_append.1 h with h | h
    · split at h
      · rename_i a t _ he
        rw [List.mem_singleton] at h
        rw [h]
        exact (enc_clean _ _ _ _ he hc.1).1
      · cases h
    · exact attrs_clean fs vs hc.2 x h

theorem attrs_nodup : ∀ (fs : List Field) (vs : List Val), Distinct fs → ((attrsOf fs vs).map (·.1)).Nodup
  | [], _, _ => by simp [attrsOf]
  | f :: fs, [], _ => by simp [attrsOf]
  | f :: fs, v :: vs, hd => by
    have hd := List.pairwise_cons.1 hd
    have ih := attrs_nodup fs vs hd.2
    rw [attrsOf]
    split
    · rename_i a t hp _
      simp only [List.singleton_append, List.map_cons, List.nodup_cons]
      refine ⟨fun hm => ?_, ih⟩
      obtain ⟨x, hx, hxa⟩ := List.mem_map.1 hm
      obtain ⟨g, hg, b, hgb, hxb⟩ := attrs_mem fs vs x hx
      apply hd.1 g hg
      rw [hp, hgb, String.toList_inj.1 (hxb.symm.trans hxa)]
    · exact ih

theorem text_clean : ∀ (fs : List Field) (vs : List Val), CleanVals fs vs →
    Clean (textOf fs vs) ∧ (textOf fs vs = [] ∨ ¬ Blank (textOf fs vs))
  | [], _, _ => by simp [textOf, Clean]
  | f :: fs, [], _ => by simp [textOf, Clean]
  | f :: fs, v :: vs, hc => by
    rw [CleanVals] at hc
    rw [textOf]
    split
    · rename_i t hp he
      have := enc_clean _ _ _ _ he hc.1
      exact ⟨this.1, this.2 hp⟩
    · exact text_clean fs vs hc.2

theorem cleanKids_mem : ∀ {ks : List (List Obj)}, CleanKids ks → ∀ k ∈ ks, CleanList k
  | [], _, _, h => by cases h
  | a :: ks, hc, k, h => by
    rw [CleanKids] at hc
    rcases List.mem_cons.1 h with h | h
    · rw [h]; exact hc.1
    · exact cleanKids_mem hc.2 k h

theorem cleanList_mem : ∀ {k : List Obj}, CleanList k → ∀ o ∈ k, CleanTree o
  | [], _, _, h => by cases h
  | a :: k, hc, o, h => by
    rw [CleanList] at hc
    rcases List.mem_cons.1 h with h | h
    · rw [h]; exact hc.1
    · exact cleanList_mem hc.2 o h

theorem writeList_plain : ∀ (k : List Obj), (∀ o ∈ k, Plain (write classes o)) → Plains (writeList classes k)
  | [], _ => by simp [writeList, Plains]
  | o :: k, h => by
    have ih := writeList_plain k (fun p hp => h p (by simp [hp]))
    rw [writeList]
    split
    · exact ih
    · exact ⟨h o (by simp), ih⟩

theorem wrap_plain (s : Slot) (es : List Xml) (any : Bool) (hb : ∀ b, s.wbox = some b → Name b.toList) (h : Plains es) :
    Plains (s.wrap es any) := by
  unfold Slot.wrap
  split
  · exact h
  · rename_i b hsb
    split
    · simp [Plains]
    · refine ⟨?_, by simp [Plains]⟩
      rw [Plain]
      exact ⟨hb b hsb, by simp, by simp, by simp [Clean], .inl rfl, h⟩

theorem writeSlots_plain : ∀ (ss : List Slot) (ks : List (List Obj)), (∀ s ∈ ss, ∀ b, s.wbox = some b → Name b.toList) →
    (∀ k ∈ ks, ∀ o ∈ k, Plain (write classes o)) → Plains (writeSlots classes ss ks)
  | _, [], _, _ => by simp [writeSlots, Plains]
  | [], k :: ks, _, _ => by simp [writeSlots, Plains]
  | s :: ss, k :: ks, hs, h => by
    rw [writeSlots]
    exact Xml.plains_append (wrap_plain s _ _ (hs s (by simp)) (writeList_plain k (h k (by simp))))
      (writeSlots_plain ss ks (fun t ht => hs t (by simp [ht])) (fun k' hk' => h k' (by simp [hk'])))

theorem write_plain (o : Obj) (h : Tree o) (hc : CleanTree o) : Plain (write classes o) := by
  induction h with
  | mk c vs ks hcl hv hg hn hf hk ih =>
    rw [CleanTree, row_of hcl] at hc
    have hok := (table_ok c hcl).1
    unfold classOk at hok
    simp only [Bool.and_eq_true, List.all_eq_true, decide_eq_true_eq] at hok
    obtain ⟨⟨⟨⟨-, -⟩, hdi⟩, -⟩, -⟩ := hok
    have hnm := names_ok c hcl
    unfold namesOk at hnm
    simp only [Bool.and_eq_true, List.all_eq_true] at hnm
    rw [write, row_of hcl, Plain]
    have ht := text_clean c.fields vs hc.1
    refine ⟨nameB_name hnm.1.1, fun x hx => ⟨?_, attrs_clean _ _ hc.1 x hx⟩, attrs_nodup _ _ hdi, ht.1, ht.2, ?_⟩
    · obtain ⟨f, hf, a, hp, ha⟩ := attrs_mem _ _ x hx
      have := hnm.1.2 f hf
      rw [hp] at this
      rw [ha]
      exact nameB_name this
    · refine writeSlots_plain c.slots ks (fun s hs b hb => ?_) (fun k hk' o ho => ih k hk' o ho (cleanList_mem (cleanKids_mem hc.2 k hk') o ho))
      have := hnm.2 s hs
      rw [hb] at this
      exact nameB_name this

/-- What is written is read as the same objects, if the nodes are at most 98 levels deep. -/
theorem inner_file (F : Fl) (o : Obj) (h : Tree o) (hc : CleanTree o) (hl : levels (write classes o) ≤ 98) :
    ∃ x, readBuffer (writeXmlText (write classes o)) = some x ∧ Same (prune o) (read classes F o.cls x) := by
  refine ⟨write classes o, ?_, inner_back F o h⟩
  rw [Xml.read_tree _ (write_plain o h hc), if_pos hl]

end Verif.Mvr
