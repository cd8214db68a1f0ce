import Verif.Mvr.FormatSpec
import Verif.Mvr.Checks
import Verif.Mvr.SceneProps
import Verif.Gdtf.FormatLemmas

/-!
# Scenes are written in the notation of the MVR standard (C89)
-/

namespace Verif.Mvr

open Verif.Real Verif.Dmx Verif.Enum Verif.Text Spec Inner
open Verif.Gdtf (real_says int_says vec_row word)

/-! ### Values -/

/-- The converter writes the notation. -/
def tells : Form → Codec → Bool
  | .text, .text => true
  | .guid, .uuid => true
  | .int, .sint _ => true
  | .int, .uint32 => true
  | .int, .size => true
  | .int, .sizeAs32 => true
  | .int, .sizeFrom32 => true
  | .bool, .flag => true
  | .float, .real => true
  | .vector, .vec => true
  | .color, .color => true
  | .matrix, .matrix => true
  | .oneOf w, .source => w == sourceWords
  | .oneOf w, .scale => w == scaleWords
  | .oneOf w, .transmission => w == transmissionWords
  | .command, .command => true
  | _, _ => false

theorem word_source (v : SourceType) : Gdtf.Spec.Word sourceWords v.ctorIdx (writeSourceType v) := word (by cases v <;> decide +kernel)

theorem word_scale (v : ScaleHandlingType) : Gdtf.Spec.Word scaleWords v.ctorIdx (writeScaleHandlingType v) := word (by cases v <;> decide +kernel)

theorem word_transmission (v : TransmissionType) : Gdtf.Spec.Word transmissionWords v.ctorIdx (writeTransmissionType v) :=
  word (by cases v <;> decide +kernel)

theorem color_says (v : V3) (h : 0 ≤ v.x.mag ∧ 0 ≤ v.y.mag ∧ 0 ≤ v.z.mag) :
    Gdtf.Spec.Listed [Gdtf.Spec.RealText v.x, Gdtf.Spec.RealText v.y, Gdtf.Spec.RealText v.z] (writeColor v) :=
  ⟨_, _, real_says _ h.1, ⟨_, _, real_says _ h.2.1, real_says _ h.2.2, rfl⟩, rfl⟩

theorem matrixMvr_says (m : Mat) (h : Kept .matrix (.matrix m)) : Says .matrix (.matrix m) (writeMatrixMvr m) := by
  obtain ⟨h1, h2, h3, h4⟩ := h
  exact ⟨_, _, vec_row m.u h1, ⟨_, _, vec_row m.v h2, ⟨_, _, vec_row m.w h3, ⟨_, _, vec_row m.o h4, rfl, rfl⟩, rfl⟩, rfl⟩, rfl⟩

theorem command_says (fn : Text) (p : Bool) (x : Dbl) (h : 0 ≤ x.mag) : Says .command (.command fn p x) (writeCommand fn p x) := by
  refine ⟨printReal x, real_says x h, ?_⟩
  unfold writeCommand
  cases p <;> simp

theorem size_says {i : Int} (h : 0 ≤ i ∧ i < 2 ^ 31) : Says .int (.int i) (Text.writeInteger (toSint 64 i)) := by
  obtain ⟨n, rfl, hn⟩ := nat_of h
  rw [toSint64_small n hn]
  exact int_says _

theorem size32_says {i : Int} (h : 0 ≤ i ∧ i < 2 ^ 31) : Says .int (.int i) (Text.writeInteger (toSint 32 i)) := by
  obtain ⟨n, rfl, hn⟩ := nat_of h
  rw [toSint32_small n hn]
  exact int_says _

/-- Every converter writes its notation. -/
theorem value_says {f : Form} {c : Codec} {v : Val} (h : tells f c = true) (hk : Kept c v) : ∃ t, enc c v = some t ∧ Says f v t := by
  unfold tells at h
  split at h <;> (try cases h) <;> cases v <;> (try exact hk.elim)
  case text => exact ⟨_, rfl, rfl⟩
  case uuid u => exact ⟨_, rfl, Gdtf.guid_says 2 u hk⟩
  case int i => exact ⟨_, rfl, int_says i⟩
  case int i => exact ⟨_, rfl, int_says i⟩
  case int i => exact ⟨_, rfl, size_says hk⟩
  case int i => exact ⟨_, rfl, size32_says hk⟩
  case int i => exact ⟨_, rfl, size_says hk⟩
  case flag b => exact ⟨_, rfl, by cases b <;> rfl⟩
  case real x => exact ⟨_, rfl, real_says x hk⟩
  case vec v => exact ⟨_, rfl, vec_row v hk⟩
  case color v => exact ⟨_, rfl, color_says v hk⟩
  case matrix m => exact ⟨_, rfl, matrixMvr_says m hk⟩
  case source s => rw [beq_iff_eq] at h; subst h; exact ⟨_, rfl, rfl, word_source s⟩
  case scale s => rw [beq_iff_eq] at h; subst h; exact ⟨_, rfl, rfl, word_scale s⟩
  case transmission s => rw [beq_iff_eq] at h; subst h; exact ⟨_, rfl, rfl, word_transmission s⟩
  case command fn p x => exact ⟨_, rfl, command_says fn p x hk.2.2⟩

/-! ### The table -/

/-- A value is written where the standard has it. -/
def spotField (s : Spot) (f : Field) : Bool :=
  match s, f.place with
  | .attr n form, .attr a => n == a && tells form f.codec
  | .optional n, .attr a => n == a && f.codec == .optText
  | .extra n, .attr a => n == a && f.codec == .optText
  | .between form, .own => tells form f.codec
  | _, _ => false

/-- A class is written as the standard has it. -/
def entryClass (x : Entry) (c : Class) : Bool := x.cls == c.name && x.node == c.node && pairs spotField x.spots c.fields

theorem entry_of : ∀ c ∈ classes, entries.any (fun x => entryClass x c) = true := by decide +kernel

theorem pairs_at {α β : Type} {f : α → β → Bool} : ∀ {as : List α} {bs : List β}, pairs f as bs = true →
    ∀ (i : Nat) (a : α) (b : β), as[i]? = some a → bs[i]? = some b → f a b = true
  | [], [], _, i, a, b, h, _ => by simp at h
  | x :: as, y :: bs, h, 0, a, b, ha, hb => by
    rw [pairs, Bool.and_eq_true] at h
    simp only [List.getElem?_cons_zero, Option.some.injEq] at ha hb
    rw [← ha, ← hb]; exact h.1
  | x :: as, y :: bs, h, i + 1, a, b, ha, hb => by
    rw [pairs, Bool.and_eq_true] at h
    exact pairs_at h.2 i a b (by simpa using ha) (by simpa using hb)
  | [], _ :: _, h, _, _, _, _, _ => by simp [pairs] at h
  | _ :: _, [], h, _, _, _, _, _ => by simp [pairs] at h

theorem kept_at : ∀ {fs : List Field} {vs : List Val}, KeptAll fs vs → ∀ (i : Nat) (f : Field) (v : Val), fs[i]? = some f → vs[i]? = some v →
    Kept f.codec v
  | [], _, _, i, f, v, h, _ => by simp at h
  | _ :: _, [], _, i, f, v, _, h => by simp at h
  | g :: fs, w :: vs, h, 0, f, v, hf, hv => by
    simp only [List.getElem?_cons_zero, Option.some.injEq] at hf hv
    rw [← hf, ← hv]; exact h.1
  | g :: fs, w :: vs, h, i + 1, f, v, hf, hv => kept_at h.2 i f v (by simpa using hf) (by simpa using hv)

theorem attrs_in : ∀ (fs : List Field) (vs : List Val) (i : Nat) (f : Field) (v : Val) (a : String) (t : Text), fs[i]? = some f →
    vs[i]? = some v → f.place = .attr a → enc f.codec v = some t → (a.toList, t) ∈ attrsOf fs vs
  | [], _, _, _, _, _, _, h, _, _, _ => by simp at h
  | _ :: _, [], _, _, _, _, _, _, h, _, _ => by simp at h
  | g :: fs, w :: vs, 0, f, v, a, t, hf, hv, hp, he => by
    simp only [List.getElem?_cons_zero, Option.some.injEq] at hf hv
    subst hf; subst hv
    rw [attrsOf, hp, he]
    exact List.mem_cons_self ..
  | g :: fs, w :: vs, i + 1, f, v, a, t, hf, hv, hp, he => by
    rw [attrsOf]
    exact List.mem_append_right _ (attrs_in fs vs i f v a t (by simpa using hf) (by simpa using hv) hp he)

theorem attrs_not (a : String) : ∀ (fs : List Field) (vs : List Val), (∀ (i : Nat) (f : Field) (v : Val), fs[i]? = some f → vs[i]? = some v →
    f.place = .attr a → enc f.codec v = none) → a.toList ∉ (attrsOf fs vs).map (·.1)
  | [], _, _ => by simp [attrsOf]
  | _ :: _, [], _ => by simp [attrsOf]
  | g :: fs, w :: vs, h => by
    have ih := attrs_not a fs vs (fun i f v hf hv => h (i + 1) f v (by simpa using hf) (by simpa using hv))
    have h0 := h 0 g w rfl rfl
    rw [attrsOf, List.map_append, List.mem_append]
    rintro (hm | hm)
    · cases hp : g.place with
      | own => rw [hp] at hm; simp at hm
      | attr b =>
        rw [hp] at hm h0
        cases he : enc g.codec w with
        | none => rw [he] at hm; simp at hm
        | some t =>
          rw [he] at hm h0
          simp only [List.map_cons, List.map_nil, List.mem_singleton] at hm
          exact absurd (h0 (by rw [String.toList_inj.1 hm])) (by simp)
    · exact ih hm

theorem distinct_at {fs : List Field} (hd : Distinct fs) {i j : Nat} {f g : Field} (hi : fs[i]? = some f) (hj : fs[j]? = some g)
    (h : f.place = g.place) : i = j := by
  obtain ⟨hi', hi⟩ := List.getElem?_eq_some_iff.1 hi
  obtain ⟨hj', hj⟩ := List.getElem?_eq_some_iff.1 hj
  have hp := List.pairwise_iff_getElem.1 hd
  rcases Nat.lt_trichotomy i j with hij | hij | hij
  · exact absurd (by rw [hi, hj]; exact h) (hp i j hi' hj' hij)
  · exact hij
  · exact absurd (by rw [hi, hj]; exact h.symm) (hp j i hj' hi' hij)

/-- The values of an object are where the standard has them. -/
theorem values_shown {spots : List Spot} {fs : List Field} {vs : List Val} (hp : pairs spotField spots fs = true) (hd : Distinct fs)
    (hk : KeptAll fs vs) : Values spots vs (attrsOf fs vs) (textOf fs vs) where
  number := by rw [keptAll_length hk, pairs_length hp]
  each := by
    intro i s v hs hv
    obtain ⟨f, hf⟩ : ∃ f, fs[i]? = some f := by
      have := (List.getElem?_eq_some_iff.1 hs).1
      rw [pairs_length hp] at this
      exact ⟨_, List.getElem?_eq_getElem this⟩
    have hsf := pairs_at hp i s f hs hf
    have hkv := kept_at hk i f v hf hv
    have opt : ∀ n a, f.place = .attr a → (n == a && f.codec == .optText) = true → ∃ u, v = .text u ∧
        (if u = [] then n.toList ∉ (attrsOf fs vs).map (·.1) else (n.toList, u) ∈ attrsOf fs vs) := by
      intro n a hpl hc
      simp only [Bool.and_eq_true, beq_iff_eq] at hc
      obtain ⟨rfl, hc⟩ := hc
      rw [hc] at hkv
      cases v <;> try exact hkv.elim
      case text u =>
        refine ⟨u, rfl, ?_⟩
        by_cases hu : u = []
        · rw [if_pos hu]
          apply attrs_not
          intro j g w hg hw hgp
          have : j = i := distinct_at hd hg hf (by rw [hgp, hpl])
          subst this
          rw [hf, Option.some.injEq] at hg
          rw [hv, Option.some.injEq] at hw
          rw [← hg, ← hw, hc, hu]
          rfl
        · rw [if_neg hu]
          exact attrs_in fs vs i f (.text u) n u hf hv hpl (by rw [hc]; simp [enc, hu])
    unfold spotField at hsf
    split at hsf
    · rename_i n form a hpl
      simp only [Bool.and_eq_true, beq_iff_eq] at hsf
      obtain ⟨rfl, ht⟩ := hsf
      obtain ⟨t, he, hsay⟩ := value_says ht hkv
      exact ⟨t, attrs_in fs vs i f v n t hf hv hpl he, hsay⟩
    · rename_i n a hpl
      obtain ⟨u, rfl, h⟩ := opt n a hpl hsf
      exact h
    · rename_i n a hpl
      obtain ⟨u, rfl, h⟩ := opt n a hpl hsf
      exact h
    · rename_i form hpl
      obtain ⟨t, he, hsay⟩ := value_says hsf hkv
      have hg := get_written [] [] fs vs i f v hd hf hv
      rw [hpl, he] at hg
      show Says form v (textOf fs vs)
      have : textOf fs vs = t := hg
      rw [this]
      exact hsay
    · cases hsf
  only := by
    intro p hpm
    obtain ⟨f, hf, a, hpl, e⟩ := attrs_mem fs vs p hpm
    obtain ⟨i, hi, hif⟩ := List.mem_iff_getElem.1 hf
    have hlen := pairs_length hp
    have hs : spots[i]? = some spots[i] := List.getElem?_eq_getElem (by omega)
    have hsf := pairs_at hp i _ f hs (by rw [List.getElem?_eq_getElem hi, hif])
    refine ⟨spots[i], List.getElem_mem _, a, ?_, e⟩
    unfold spotField at hsf
    rw [hpl] at hsf
    generalize spots[i] = s at hsf ⊢
    cases s <;> simp only [Bool.and_eq_true, beq_iff_eq, Bool.false_eq_true] at hsf
    all_goals rw [← hsf.1]; rfl
  once := attrs_nodup fs vs hd
  blank := by
    intro h
    apply text_other
    intro f hf hpl
    obtain ⟨i, hi, hif⟩ := List.mem_iff_getElem.1 hf
    have hlen := pairs_length hp
    have hs : spots[i]? = some spots[i] := List.getElem?_eq_getElem (by omega)
    have hsf := pairs_at hp i _ f hs (by rw [List.getElem?_eq_getElem hi, hif])
    have hn := h spots[i] (List.getElem_mem _)
    unfold spotField at hsf
    rw [hpl] at hsf
    generalize spots[i] = s at hsf hn
    cases s <;> first | exact absurd rfl hn | cases hsf

/-! ### Objects -/

theorem class_facts {c : Class} (hc : c ∈ classes) : Distinct c.fields ∧ (c.slots.all (slotOk classes)) = true := by
  have h := (table_ok c hc).1
  unfold classOk at h
  simp only [Bool.and_eq_true, decide_eq_true_eq] at h
  exact ⟨h.1.1.2, h.1.1.1.1⟩

/-- The nodes of objects are not among those that collect. -/
theorem table_boxes : ∀ c ∈ classes, c.node.toList ∉ boxes.map (·.toList) ∧ ∀ s ∈ c.slots, ∀ b, s.wbox = some b → b ∈ boxes := by
  have h : ∀ c ∈ classes, c.node ∉ boxes ∧ ∀ s ∈ c.slots, (s.wbox.all (fun b => decide (b ∈ boxes))) = true := by decide +kernel
  intro c hc
  obtain ⟨h1, h2⟩ := h c hc
  refine ⟨fun hm => ?_, fun s hs b hb => ?_⟩
  · obtain ⟨b, hb, e⟩ := List.mem_map.1 hm
    rw [← String.toList_inj.1 e] at h1
    exact h1 hb
  · have := h2 s hs
    rw [hb] at this
    exact of_decide_eq_true this

theorem inner_append (a b : List Xml) : inner (a ++ b) = inner a ++ inner b := List.flatMap_append ..

theorem inner_plain : ∀ {es : List Xml}, (∀ e ∈ es, e.name ∉ boxes.map (·.toList)) → inner es = es := by
  intro es h
  induction es with
  | nil => rfl
  | cons e es ih =>
    have := ih (fun x hx => h x (List.mem_cons_of_mem _ hx))
    unfold inner at this ⊢
    rw [List.flatMap_cons, this, if_neg (h e (List.mem_cons_self ..))]
    rfl

theorem tree_node {o : Obj} (h : Tree o) : (write classes o).name ∉ boxes.map (·.toList) := by
  rw [write_name]
  cases h with
  | mk c vs ks hc _ _ _ _ _ =>
    show (row classes c.name).node.toList ∉ _
    rw [row_of hc]
    exact (table_boxes c hc).1

theorem writeList_node {k : List Obj} (h : ∀ o ∈ k, Tree o) : ∀ e ∈ writeList classes k, e.name ∉ boxes.map (·.toList) := by
  intro e he
  rw [writeList_map] at he
  obtain ⟨o, ho, rfl⟩ := List.mem_map.1 he
  exact tree_node (h o (List.mem_of_mem_filter ho))

theorem wrap_inner {s : Slot} {k : List Obj} (h : ∀ o ∈ k, Tree o) (hb : ∀ b, s.wbox = some b → b ∈ boxes) :
    inner (s.wrap (writeList classes k) (!k.isEmpty)) = writeList classes k := by
  unfold Slot.wrap
  cases hw : s.wbox with
  | none => exact inner_plain (writeList_node h)
  | some b =>
    simp only
    split
    · rename_i hc
      simp only [Bool.and_eq_true, Bool.not_not, List.isEmpty_iff] at hc
      rw [hc.2]
      rfl
    · unfold inner
      rw [List.flatMap_cons, if_pos (show Scene.Xml.name (.elem b.toList [] [] (writeList classes k)) ∈ boxes.map (·.toList) from
        List.mem_map_of_mem (f := fun x : String => x.toList) (hb b hw))]
      simp [Scene.Xml.kids]

theorem slots_inner : ∀ (ss : List Slot) (ks : List (List Obj)), (∀ s ∈ ss, ∀ b, s.wbox = some b → b ∈ boxes) →
    ks.length = ss.length → (∀ k ∈ ks, ∀ o ∈ k, Tree o) → inner (writeSlots classes ss ks) = ks.flatMap (writeList classes)
  | _, [], _, _, _ => by rw [writeSlots]; rfl
  | [], _ :: _, _, h, _ => by simp at h
  | s :: ss, k :: ks, hb, hl, hk => by
    rw [writeSlots, inner_append, wrap_inner (hk k (List.mem_cons_self ..)) (hb s (List.mem_cons_self ..)),
      slots_inner ss ks (fun s hs => hb s (List.mem_cons_of_mem _ hs)) (by simpa using hl) (fun k hk' => hk k (List.mem_cons_of_mem _ hk')),
      List.flatMap_cons]

theorem assumed_of {c : Class} (hc : c ∈ classes) (h1 : c.skip ≠ .never) (h2 : c.skip ≠ .noChildren) :
    (c.name, c.fields.map (·.init)) ∈ assumed := by
  have h : ∀ c ∈ classes, c.skip ≠ .never → c.skip ≠ .noChildren → (c.name, c.fields.map (·.init)) ∈ assumed := by decide +kernel
  exact h c hc h1 h2

theorem groups_only : ∀ c ∈ classes, c.skip = .noChildren → c.name = "SceneDataGroupObj" := by decide +kernel

theorem skipped_missing {o : Obj} (h : Tree o) (hs : skipped classes o = true) : Missing o := by
  cases h with
  | mk c vs ks hc hv hg hn hf hk =>
    rw [skipped, row_of hc] at hs
    by_cases hnc : c.skip = .noChildren
    · left
      refine ⟨groups_only c hc hnc, ?_⟩
      rw [hnc] at hs
      simp only [Skip.test, List.isEmpty_iff] at hs
      cases hl : ks.getLast? with
      | some k => rw [hl] at hs; simp at hs; rw [hs]
      | none =>
        have hne : ∀ c ∈ classes, c.skip = .noChildren → c.slots ≠ [] := by decide +kernel
        have : ks = [] := List.getLast?_eq_none_iff.1 hl
        rw [this] at hn
        exact absurd (List.length_eq_zero_iff.1 hn.symm) (hne c hc hnc)
    · right
      refine ⟨c.fields.map (·.init), assumed_of hc ?_ hnc, ?_⟩
      · intro e
        rw [e] at hs
        simp [Skip.test] at hs
      · have := skipped_fresh hc hv hg hn hs hnc
        rw [fresh, freshTo, row_of hc, prune, Same] at this
        exact this.2.1

theorem shownList_append {os ps : List Obj} {es fs : List Xml} : ShownList os es → ShownList ps fs → ShownList (os ++ ps) (es ++ fs) := by
  intro h
  induction os generalizing es with
  | nil => cases h; exact id
  | cons o os ih =>
    intro hp
    cases h with
    | node h hs => exact .node h (ih hs hp)
    | missing h hs => exact .missing h (ih hs hp)

theorem shown_list : ∀ {k : List Obj}, (∀ o ∈ k, Tree o) → (∀ o ∈ k, Shown o (write classes o)) → ShownList k (writeList classes k)
  | [], _, _ => by rw [writeList]; exact .nil
  | o :: k, ht, hs => by
    have ih := shown_list (fun x hx => ht x (List.mem_cons_of_mem _ hx)) (fun x hx => hs x (List.mem_cons_of_mem _ hx))
    rw [writeList]
    split
    · rename_i hsk
      exact .missing (skipped_missing (ht o (List.mem_cons_self ..)) hsk) ih
    · exact .node (hs o (List.mem_cons_self ..)) ih

theorem shown_lists : ∀ {ks : List (List Obj)}, (∀ k ∈ ks, ∀ o ∈ k, Tree o) → (∀ k ∈ ks, ∀ o ∈ k, Shown o (write classes o)) →
    ShownList ks.flatten (ks.flatMap (writeList classes))
  | [], _, _ => .nil
  | k :: ks, ht, hs => by
    rw [List.flatten_cons, List.flatMap_cons]
    exact shownList_append (shown_list (ht k (List.mem_cons_self ..)) (hs k (List.mem_cons_self ..)))
      (shown_lists (fun k hk => ht k (List.mem_cons_of_mem _ hk)) (fun k hk => hs k (List.mem_cons_of_mem _ hk)))

theorem tree_shown {o : Obj} (h : Tree o) : Shown o (write classes o) := by
  induction h with
  | mk c vs ks hc hv hg hn hf hk ih =>
    obtain ⟨x, hx, hxc⟩ := List.any_eq_true.1 (entry_of c hc)
    unfold entryClass at hxc
    simp only [Bool.and_eq_true, beq_iff_eq] at hxc
    obtain ⟨⟨hcls, hnode⟩, hp⟩ := hxc
    rw [write, row_of hc, ← hcls, ← hnode]
    refine .mk x vs ks _ _ _ hx (values_shown hp (class_facts hc).1 hv) ?_
    rw [slots_inner c.slots ks (table_boxes c hc).2 hn hk]
    exact shown_lists hk ih

/-- **C89, values.** The nodes that are written for the objects of a scene are the ones of the MVR standard: one node for each object, in
the order of the objects and within the node of the object around it; only groups without objects and values that a reader assumes anyway
are left out.  The node has the name the standard has for such objects, each value is where the standard has it and is written in the
standard's notation, and there are no other attributes or texts.  The names of objects that have none in the standard are attributes that it
does not have.  Missing: what `Build` excludes, i.e. numbers above 2147483647, and rotations of gobos that are not there. -/
theorem C89_values_partial (o : Obj) (h : Build o) : Shown o (write classes o) := tree_shown (build_tree h)

/-! ### Places -/

theorem nodeOf_class : ∀ c ∈ classes, nodeOf c.name = c.node := by decide +kernel

/-- What the standard has in a node is written into the node that collects it. -/
theorem table_places : ∀ c ∈ classes, ∀ s ∈ c.slots, (∀ h ∈ s.holds, ∀ p ∈ places, p.1 = c.node → nodeOf h ∈ p.2.2 → p.2.1 = s.wbox) ∧
    (s.onlyIfAny = false → ∀ b, s.wbox = some b → ∃ p ∈ places, p.1 = c.node ∧ p.2.1 = some b) := by
  have h : ∀ c ∈ classes, ∀ s ∈ c.slots, (∀ h ∈ s.holds, ∀ p ∈ places, p.1 = c.node → nodeOf h ∈ p.2.2 → p.2.1 = s.wbox) ∧
      (s.onlyIfAny || s.wbox.isNone || places.any (fun p => p.1 == c.node && p.2.1 == s.wbox)) = true := by decide +kernel
  intro c hc s hs
  obtain ⟨h1, h2⟩ := h c hc s hs
  refine ⟨h1, fun ho b hb => ?_⟩
  rw [ho, hb] at h2
  simp only [Bool.false_or, Option.isNone_some, List.any_eq_true, Bool.and_eq_true, beq_iff_eq] at h2
  exact h2

theorem placedAll_append (n : Text) (b : Option Text) : ∀ (x y : List Xml), PlacedAll n b (x ++ y) ↔ PlacedAll n b x ∧ PlacedAll n b y
  | [], y => by simp [PlacedAll]
  | .elem m a t k :: x, y => by
    rw [List.cons_append, PlacedAll, PlacedAll, placedAll_append n b x y, and_assoc]

theorem placed_list {n : Text} {b : Option Text} : ∀ {es : List Xml}, (∀ e ∈ es, e.name ∉ boxes.map (·.toList)) →
    (∀ e ∈ es, Placed e) → (∀ e ∈ es, ∃ p ∈ places, p.1.toList = n ∧ p.2.1.map (·.toList) = b ∧ e.name ∈ p.2.2.map (·.toList)) → PlacedAll n b es
  | [], _, _, _ => by rw [PlacedAll]; trivial
  | .elem m a t k :: es, h1, h2, h3 => by
    rw [PlacedAll]
    have hm : m ∉ boxes.map (·.toList) := h1 _ (List.mem_cons_self ..)
    rw [if_neg (fun h => hm h.2)]
    have hp : Placed (.elem m a t k) := h2 _ (List.mem_cons_self ..)
    rw [Placed] at hp
    exact ⟨⟨h3 _ (List.mem_cons_self ..), hp⟩, placed_list (fun e he => h1 e (List.mem_cons_of_mem _ he)) (fun e he => h2 e (List.mem_cons_of_mem _ he))
      (fun e he => h3 e (List.mem_cons_of_mem _ he))⟩

theorem tree_name {o : Obj} (h : Tree o) : (write classes o).name = (nodeOf o.cls).toList := by
  rw [write_name]
  cases h with
  | mk c vs ks hc _ _ _ _ _ =>
    show (row classes c.name).node.toList = (nodeOf c.name).toList
    rw [row_of hc, nodeOf_class c hc]

theorem slots_placed {c : Class} : ∀ (ss : List Slot) (ks : List (List Obj)),
    (∀ s ∈ ss, (∀ h ∈ s.holds, ∀ p ∈ places, p.1 = c.node → nodeOf h ∈ p.2.2 → p.2.1 = s.wbox) ∧
      (s.onlyIfAny = false → ∀ b, s.wbox = some b → ∃ p ∈ places, p.1 = c.node ∧ p.2.1 = some b)) →
    (∀ s ∈ ss, ∀ b, s.wbox = some b → b ∈ boxes) → (∀ p ∈ ss.zip ks, Fits p.1 p.2) →
    (∀ k ∈ ks, ∀ o ∈ k, Tree o ∧ Placed (write classes o) ∧ ∃ p ∈ places, p.1 = c.node ∧ nodeOf o.cls ∈ p.2.2) →
    PlacedAll c.node.toList none (writeSlots classes ss ks)
  | _, [], _, _, _, _ => by rw [writeSlots, PlacedAll]; trivial
  | [], _ :: _, _, _, _, _ => by rw [writeSlots, PlacedAll]; trivial
  | s :: ss, k :: ks, hs, hb, hf, hk => by
    rw [writeSlots, placedAll_append]
    refine ⟨?_, slots_placed ss ks (fun s h => hs s (List.mem_cons_of_mem _ h)) (fun s h => hb s (List.mem_cons_of_mem _ h))
      (fun p hp => hf p (by rw [List.zip_cons_cons]; exact List.mem_cons_of_mem _ hp)) (fun k h => hk k (List.mem_cons_of_mem _ h))⟩
    have hkk := hk k (List.mem_cons_self ..)
    have hfit := hf (s, k) (by rw [List.zip_cons_cons]; exact List.mem_cons_self ..)
    have box : ∀ o ∈ k, ∃ p ∈ places, p.1 = c.node ∧ p.2.1 = s.wbox ∧ nodeOf o.cls ∈ p.2.2 := by
      intro o ho
      obtain ⟨p, hp, h1, h2⟩ := (hkk o ho).2.2
      exact ⟨p, hp, h1, (hs s (List.mem_cons_self ..)).1 o.cls (hfit.1 o ho) p hp h1 h2, h2⟩
    have list : PlacedAll c.node.toList (s.wbox.map (·.toList)) (writeList classes k) := by
      apply placed_list (writeList_node (fun o ho => (hkk o ho).1))
      · intro e he
        rw [writeList_map] at he
        obtain ⟨o, ho, rfl⟩ := List.mem_map.1 he
        exact (hkk o (List.mem_of_mem_filter ho)).2.1
      · intro e he
        rw [writeList_map] at he
        obtain ⟨o, ho, rfl⟩ := List.mem_map.1 he
        have ho := List.mem_of_mem_filter ho
        obtain ⟨p, hp, h1, h2, h3⟩ := box o ho
        refine ⟨p, hp, by rw [h1], by rw [h2], ?_⟩
        rw [tree_name (hkk o ho).1]
        exact List.mem_map_of_mem h3
    unfold Slot.wrap
    cases hw : s.wbox with
    | none => rw [hw] at list; exact list
    | some b =>
      simp only
      split
      · rw [PlacedAll]; trivial
      · rename_i hc
        rw [PlacedAll, if_pos ⟨rfl, List.mem_map_of_mem (hb s (List.mem_cons_self ..) b hw)⟩]
        rw [hw] at list
        refine ⟨⟨rfl, rfl, ?_, list⟩, by rw [PlacedAll]; trivial⟩
        have key : ∃ p ∈ places, p.1 = c.node ∧ p.2.1 = some b := by
          cases hoa : s.onlyIfAny with
          | false => exact (hs s (List.mem_cons_self ..)).2 hoa b hw
          | true =>
            cases k with
            | nil => rw [hoa] at hc; simp at hc
            | cons o k =>
              obtain ⟨p, hp, h1, h2, -⟩ := box o (List.mem_cons_self ..)
              exact ⟨p, hp, h1, by rw [h2, hw]⟩
        obtain ⟨p, hp, h1, h2⟩ := key
        exact ⟨p, hp, by rw [h1], by rw [h2]; rfl⟩

theorem tree_placed {o : Obj} (h : Tree o) : Allowed o → Placed (write classes o) := by
  induction h with
  | mk c vs ks hc hv hg hn hf hk ih =>
    intro ha
    cases ha with
    | mk _ _ _ ha hak =>
      rw [write, row_of hc, Placed]
      rw [nodeOf_class c hc] at ha
      exact slots_placed c.slots ks (table_places c hc) (table_boxes c hc).2 hf
        (fun k hk' o ho => ⟨hk k hk' o ho, ih k hk' o ho (hak k hk' o ho), ha k hk' o ho⟩)

/-- **C89, places.** If the objects of a scene are in objects in which the standard has a place for them, all nodes that are written are at a
place of the standard: in the right node, and in the node in it that the standard has for collecting them. -/
theorem C89_places (o : Obj) (h : Build o) (ha : Allowed o) : Placed (write classes o) := tree_placed (build_tree h) ha

/-- **C89, description.** The whole description of a scene: the root node has the version of this library and the names that the program
gave, and everything in it is shown. -/
theorem C89_scene_partial (w : Exchange) (h : Build w.content) : ∃ k,
    w.doc = .elem "GeneralSceneDescription".toList [("verMajor".toList, "1".toList), ("verMinor".toList, "6".toList),
      ("provider".toList, w.provider), ("providerVersion".toList, w.providerVersion)] [] k ∧
    Shown w.content (.elem "GeneralSceneDescription".toList [] [] k) ∧ (Allowed w.content → PlacedAll "GeneralSceneDescription".toList none k) := by
  obtain ⟨k, h1, h2⟩ := doc_eq w
  refine ⟨k, ?_, ?_, fun ha => ?_⟩
  · rw [h2]
    unfold Exchange.rootAttrs
    rw [show Str.intText majorVersion = "1".toList by decide +kernel, show Str.intText minorVersion = "6".toList by decide +kernel]
  · rw [← h1]
    exact C89_values_partial _ h
  · have := C89_places _ h ha
    rw [h1, Placed] at this
    exact this

/-! ### Not vacuous -/

mutual
/-- A check for `Allowed`. -/
def allowedB : Obj → Bool
  | .mk c _ ks => allowedKids c ks

/-- All members. -/
def allowedKids (c : String) : List (List Obj) → Bool
  | [] => true
  | k :: ks => allowedList c k && allowedKids c ks

/-- One member. -/
def allowedList (c : String) : List Obj → Bool
  | [] => true
  | o :: os => places.any (fun p => p.1 == nodeOf c && p.2.2.contains (nodeOf o.cls)) && allowedB o && allowedList c os
end

mutual
theorem allowedB_sound : ∀ o : Obj, allowedB o = true → Allowed o
  | .mk c vs ks, h => by
    rw [allowedB] at h
    have := allowedKids_sound c ks h
    exact .mk c vs ks (fun k hk o ho => (this k hk o ho).1) (fun k hk o ho => (this k hk o ho).2)
theorem allowedKids_sound (c : String) : ∀ ks : List (List Obj), allowedKids c ks = true → ∀ k ∈ ks, ∀ o ∈ k,
    (∃ p ∈ places, p.1 = nodeOf c ∧ nodeOf o.cls ∈ p.2.2) ∧ Allowed o
  | [], _, _, h => by cases h
  | k :: ks, h, k', hk => by
    rw [allowedKids, Bool.and_eq_true] at h
    rcases List.mem_cons.1 hk with hk | hk
    · rw [hk]; exact allowedList_sound c k h.1
    · exact allowedKids_sound c ks h.2 k' hk
theorem allowedList_sound (c : String) : ∀ k : List Obj, allowedList c k = true → ∀ o ∈ k,
    (∃ p ∈ places, p.1 = nodeOf c ∧ nodeOf o.cls ∈ p.2.2) ∧ Allowed o
  | [], _, _, h => by cases h
  | o :: os, h, p, hp => by
    rw [allowedList, Bool.and_eq_true, Bool.and_eq_true] at h
    rcases List.mem_cons.1 hp with hp | hp
    · rw [hp]
      refine ⟨?_, allowedB_sound o h.1.2⟩
      obtain ⟨q, hq, hq2⟩ := List.any_eq_true.1 h.1.1
      rw [Bool.and_eq_true, beq_iff_eq] at hq2
      exact ⟨q, hq, hq2.1, by simpa using hq2.2⟩
    · exact allowedList_sound c os h.2 p hp
end

theorem example1_allowed : Allowed example1 := allowedB_sound _ (by decide +kernel)

/-- A scene with a layer, a group, a fixture with everything it can have, a mapping definition and a position. -/
example : Shown example1 (write classes example1) ∧ Placed (write classes example1) :=
  ⟨C89_values_partial _ example1_build, C89_places _ example1_build example1_allowed⟩

/-- The relation separates: the word of another type of source, a position in the first row, a flag as a number. -/
example : ¬ Says (.oneOf sourceWords) (.source .cNDI) "File".toList := by
  rintro ⟨-, w, h, e⟩
  rw [show sourceWords[SourceType.cNDI.ctorIdx]? = some "NDI" by decide +kernel, Option.some.injEq] at h
  rw [← h] at e
  exact absurd e (by decide)

example : ¬ Says .bool (.flag true) "1".toList := fun h => absurd (show "1".toList = "true".toList from h) (by decide)

/-- The node of another class is not the one for an object. -/
example (vs : List Val) (ks : List (List Obj)) (a : List (Text × Text)) (t : Text) (k : List Xml) :
    ¬ Shown (.mk "SceneDataTrussObj" vs ks) (.elem "Fixture".toList a t k) := by
  intro h
  generalize ho : (Obj.mk "SceneDataTrussObj" vs ks) = o at h
  generalize he : (Scene.Xml.elem "Fixture".toList a t k) = e at h
  cases h with
  | mk x vs' ks' a' t' k' hx hv hk =>
    have h1 := (Obj.mk.inj ho).1
    have h2 := (Scene.Xml.elem.inj he).1
    have key : ∀ x ∈ entries, x.cls = "SceneDataTrussObj" → x.node ≠ "Fixture" := by decide +kernel
    exact key x hx h1.symm (String.toList_inj.1 h2.symm)

/-- A geometry in a layer has no place. -/
example (vs ws : List Val) (ls : List (List Obj)) (rest : List (List Obj)) :
    ¬ Allowed (.mk "SceneDataLayerObj" vs ([.mk "SceneDataGeometryObj" ws ls] :: rest)) := by
  intro h
  cases h with
  | mk _ _ _ h _ =>
    obtain ⟨p, hp, h1, h2⟩ := h _ (List.mem_cons_self ..) _ (List.mem_singleton.2 rfl)
    have key : ∀ p ∈ places, p.1 = nodeOf "SceneDataLayerObj" → nodeOf "SceneDataGeometryObj" ∉ p.2.2 := by decide +kernel
    exact key p hp h1 h2

end Verif.Mvr
