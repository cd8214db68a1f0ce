import Verif.Gdtf.FormatLemmas
import Verif.Gdtf.FileText
import Verif.Gdtf.ValueMore

/-!
# C84: a description is written in the notation of the GDTF standard
-/

namespace Verif.Gdtf

open Spec
open Verif.Lookup (Txt)
open Verif.Real Verif.Text Verif.Dmx Verif.Enum
open Verif.Node (Item Kind kinds getAttr getAttr_write)

/-! ### Tables -/

/-- The node of a class, in the standard. -/
def nodeFor (cls : String) : String := (nodeNames.lookup cls).getD ""

theorem table_nodes : ∀ c ∈ classes, nodeNames.lookup c.name = some c.node ∧ c.node ∉ collects ∧
    ∀ s ∈ c.slots, ∀ b, s.wbox = some b → b ∈ collects := by
  have h : ∀ c ∈ classes, nodeNames.lookup c.name = some c.node ∧ c.node ∉ collects ∧
      ∀ s ∈ c.slots, (s.wbox.all (fun b => decide (b ∈ collects))) = true := by decide +kernel
  intro c hc
  refine ⟨(h c hc).1, (h c hc).2.1, fun s hs b hb => ?_⟩
  have := (h c hc).2.2 s hs
  rw [hb] at this
  exact of_decide_eq_true this

theorem table_forms : ∀ k ∈ kinds, ∀ i ∈ k.writes, (formAt (nodeFor k.name) i.attr).isSome = true ∧
    (i.codec ≠ .blank → formAt (nodeFor k.name) i.attr = (cvOf i.codec).map formOf) := by
  decide +kernel

theorem table_cv : ∀ k ∈ kinds, ∀ i ∈ k.writes, i.codec ≠ .blank → (cvOf i.codec).isSome = true ∧
    (i.codec ≠ .ref → cvOf i.codec ≠ some .link) := by
  decide +kernel

/-! ### The nodes of a tree -/

theorem nodesIn_append (a b : List Elem) : nodesIn (a ++ b) = nodesIn a ++ nodesIn b := by
  induction a with
  | nil => simp [nodesIn]
  | cons e a ih => rw [List.cons_append, nodesIn, ih, nodesIn, List.append_assoc]

/-- The nodes of the standard without those that collect. -/
def own (l : List (String × Attrs)) : List (String × Attrs) := l.filter (fun p => decide (p.1 ∉ collects))

theorem own_append (a b : List (String × Attrs)) : own (a ++ b) = own a ++ own b := List.filter_append ..

theorem wrap_own (s : Slot) (es : List Elem) (h : ∀ b, s.wbox = some b → b ∈ collects) : own (nodesIn (s.wrap es)) = own (nodesIn es) := by
  unfold Slot.wrap
  cases hb : s.wbox with
  | none => rfl
  | some b =>
    simp only [nodesIn, nodes, List.append_nil]
    unfold own
    rw [List.filter_cons, if_neg (by simp [h b hb])]

/-- The name and the attributes that are written for an object. -/
def shown (S : Schema Members) (f : Nat → Members → Members) (x : Nat × String × Members) : String × Attrs :=
  (S.node x.2.1, S.enc x.2.1 (f x.1 x.2.2))

theorem list_nodes (S : Schema Members) (f : Nat → Members → Members) (n : Nat) : ∀ k : List (Obj Members),
    (∀ o ∈ k, own (nodes (write S (walk f n o))) = (objects n o).map (shown S f)) →
    own (nodesIn (writeList S (walkList f n k))) = (objectsList n k).map (shown S f) := by
  intro k
  induction k with
  | nil => intro _; simp [walkList, writeList, nodesIn, objectsList, own]
  | cons o k ih =>
    intro h
    rw [walkList, writeList, nodesIn, own_append, h o (List.mem_cons_self ..), ih (fun o ho => h o (List.mem_cons_of_mem _ ho)), objectsList,
      List.map_append]

theorem slots_nodes (S : Schema Members) (f : Nat → Members → Members) (n : Nat) : ∀ (ks : List (List (Obj Members))) (ss : List Slot),
    ks.length = ss.length → (∀ s ∈ ss, ∀ b, s.wbox = some b → b ∈ collects) →
    (∀ k ∈ ks, ∀ o ∈ k, own (nodes (write S (walk f n o))) = (objects n o).map (shown S f)) →
    own (nodesIn (writeSlots S ss (walkAll f n ks))) = (objectsAll n ks).map (shown S f) := by
  intro ks
  induction ks with
  | nil => intro ss _ _ _; simp [walkAll, writeSlots, nodesIn, objectsAll, own]
  | cons k ks ih =>
    intro ss hl hs hk
    cases ss with
    | nil => cases hl
    | cons s ss =>
      rw [walkAll, writeSlots, nodesIn_append, own_append, wrap_own s _ (hs s (List.mem_cons_self ..)),
        list_nodes S f n k (hk k (List.mem_cons_self ..)),
        ih ss (Nat.succ.inj hl) (fun s h => hs s (List.mem_cons_of_mem _ h)) (fun k h => hk k (List.mem_cons_of_mem _ h)), objectsAll,
        List.map_append]

theorem node_row (S : Schema Members) (hS : S.classes = classes) (c : Class) (hc : c ∈ classes) :
    S.node c.name = c.node ∧ S.slots c.name = c.slots := by
  have h := (table_ok c hc).2
  unfold Schema.node Schema.slots Schema.row
  rw [hS, h]
  exact ⟨rfl, rfl⟩

theorem tree_nodes (S : Schema Members) (hS : S.classes = classes) (f : Nat → Members → Members) (o : Obj Members) (h : Tree classes o) :
    ∀ n, own (nodes (write S (walk f n o))) = (objects n o).map (shown S f) := by
  induction h with
  | mk c d ks hc hn hf hk ih =>
    intro n
    obtain ⟨h1, h2⟩ := node_row S hS c hc
    obtain ⟨t1, t2, t3⟩ := table_nodes c hc
    rw [walk, write, nodes, objects, h2]
    simp only [← reso_eq]
    have e : own ((S.node c.name, S.enc c.name (f (reso n c.name d) d)) :: nodesIn (writeSlots S c.slots (walkAll f (reso n c.name d) ks))) =
        (S.node c.name, S.enc c.name (f (reso n c.name d) d)) :: own (nodesIn (writeSlots S c.slots (walkAll f (reso n c.name d) ks))) := by
      unfold own
      rw [List.filter_cons, if_pos (by simp [h1, t2])]
    rw [e, slots_nodes S f _ ks c.slots hn t3 (fun k hk' o ho => ih k hk' o ho _)]
    rfl

/-! ### The objects of a tree and their places -/

theorem objectsList_mem {n : Nat} {x : Nat × String × Members} : ∀ {k : List (Obj Members)}, x ∈ objectsList n k → ∃ o ∈ k, x ∈ objects n o := by
  intro k
  induction k with
  | nil => intro h; simp [objectsList] at h
  | cons o k ih =>
    intro h
    rw [objectsList] at h
    rcases List.mem_append.1 h with h | h
    · exact ⟨o, List.mem_cons_self .., h⟩
    · obtain ⟨y, hy, h⟩ := ih h
      exact ⟨y, List.mem_cons_of_mem _ hy, h⟩

theorem objectsAll_mem {n : Nat} {x : Nat × String × Members} : ∀ {ks : List (List (Obj Members))}, x ∈ objectsAll n ks →
    ∃ k ∈ ks, ∃ o ∈ k, x ∈ objects n o := by
  intro ks
  induction ks with
  | nil => intro h; simp [objectsAll] at h
  | cons k ks ih =>
    intro h
    rw [objectsAll] at h
    rcases List.mem_append.1 h with h | h
    · obtain ⟨o, ho, h⟩ := objectsList_mem h
      exact ⟨k, List.mem_cons_self .., o, ho, h⟩
    · obtain ⟨k', hk, h⟩ := ih h
      exact ⟨k', List.mem_cons_of_mem _ hk, h⟩

theorem place_of (o : Obj Members) (h : Tree classes o) : ∀ n x, x ∈ objects n o →
    ∃ p, classAt o p = some x.2.1 ∧ dataAt o p = some x.2.2 ∧ bytesAt n o p = x.1 ∧ ∃ c ∈ classes, c.name = x.2.1 := by
  induction h with
  | mk c d ks hc hn hf hk ih =>
    intro n x hx
    rw [objects] at hx
    simp only [← reso_eq] at hx
    rcases List.mem_cons.1 hx with rfl | hx
    · exact ⟨[], rfl, rfl, bytesAt_nil n c.name d ks, c, hc, rfl⟩
    · obtain ⟨k, hk', o, ho, hx⟩ := objectsAll_mem hx
      obtain ⟨p, h1, h2, h3, h4⟩ := ih k hk' o ho _ x hx
      obtain ⟨i, hi⟩ := List.mem_iff_getElem?.1 hk'
      obtain ⟨j, hj⟩ := List.mem_iff_getElem?.1 ho
      have hb : (ks[i]?).bind (fun k => k[j]?) = some o := by rw [hi]; exact hj
      have hat : Obj.at (.mk c.name d ks) ((i, j) :: p) = Obj.at o p := by
        rw [Obj.at, hb]; rfl
      refine ⟨(i, j) :: p, ?_, ?_, ?_, h4⟩
      · unfold classAt at h1 ⊢; rw [hat]; exact h1
      · unfold dataAt at h2 ⊢; rw [hat]; exact h2
      · rw [bytesAt_cons, hb]; exact h3

/-! ### One object -/

theorem enc_kind (F : Fl) (init : String → Members) (fresh : String → Obj Members) (k : Kind) (hk : k ∈ kinds) (n : Nat) (d : Members) :
    (valueSchema F init fresh).enc k.name (fun f => dmxText n (d f)) = k.write (conv F) (cond d) (fun f => dmxText n (d f)) := by
  show (match kinds.find? (fun k' => k'.name == k.name) with | some k => _ | none => _) = _
  rw [table_find k hk, show cond (fun f => dmxText n (d f)) = cond d from funext (cond_dmxText n d)]

theorem attr_known (k : Kind) (C : Node.Conv Val) (flags : String → Bool) (d : Members) (x : String × Txt) (h : x ∈ k.write C flags d) :
    ∃ i ∈ k.writes, i.attr = x.1 := by
  have key : ∀ (l : List Item) (n : Attrs), (∀ i ∈ l, i ∈ k.writes) → (∀ x ∈ n, ∃ i ∈ k.writes, i.attr = x.1) →
      ∀ x ∈ l.foldl (fun n i => Node.setAttr n i.attr (C.text i d)) n, ∃ i ∈ k.writes, i.attr = x.1 := by
    intro l
    induction l with
    | nil => intro n _ h x hx; exact h x hx
    | cons i l ih =>
      intro n hl h x hx
      rw [List.foldl_cons] at hx
      refine ih _ (fun i hi => hl i (List.mem_cons_of_mem _ hi)) ?_ x hx
      intro y hy
      rcases setAttr_mem hy with hy | hy
      · exact h y hy
      · exact ⟨i, hl i (List.mem_cons_self ..), by rw [hy]⟩
  exact key _ [] (fun i hi => (List.mem_filter.1 hi).1) (by simp) x h

theorem object_shows (F : Fl) (init : String → Members) (fresh : String → Obj Members) (hi : Suitable init) (n : Nat) (c : Class)
    (hc : c ∈ classes) (d : Members) (ht : ∀ f, typeOf (d f) = typeOf (init c.name f)) (hk : ∀ f, Kept n (d f))
    (hm : c.name = "GdtfDmxChannelFunction" → ¬ (set? (d "fModeMaster_Channel") = true ∧ set? (d "fModeMaster_Function") = true)) :
    Shows n c.name d (shown (valueSchema F init fresh) (fun n d f => dmxText n (d f)) (n, c.name, d)) := by
  have hnode : (valueSchema F init fresh).node c.name = c.node := (node_row _ rfl c hc).1
  have hname : nodeNames.lookup c.name = some c.node := (table_nodes c hc).1
  have hfor : nodeFor c.name = c.node := by unfold nodeFor; rw [hname]; rfl
  refine ⟨?_, ?_, ?_⟩
  · show _ = some ((valueSchema F init fresh).node c.name)
    rw [hnode, hname]
  · intro x hx
    show (formAt ((valueSchema F init fresh).node c.name) x.1).isSome = true
    rw [hnode]
    cases hf : kinds.find? (fun k => k.name == c.name) with
    | none =>
      have : shown (valueSchema F init fresh) (fun n d f => dmxText n (d f)) (n, c.name, d) = ((valueSchema F init fresh).node c.name, []) := by
        unfold shown valueSchema
        simp only [hf]
      rw [this] at hx
      cases hx
    | some k =>
      have hkm := List.mem_of_find?_eq_some hf
      have hkn : k.name = c.name := by
        have := List.find?_some hf
        exact eq_of_beq this
      have hx' : x ∈ (valueSchema F init fresh).enc k.name (fun f => dmxText n (d f)) := by rw [hkn]; exact hx
      rw [enc_kind F init fresh k hkm] at hx'
      obtain ⟨i, hiw, hia⟩ := attr_known k _ _ _ x hx'
      have := (table_forms k hkm i hiw).1
      rw [hkn, hfor, hia] at this
      exact this
  · intro i hp hg hr
    obtain ⟨k, hkm, hkn, hiw, hib, hval⟩ : ∃ k ∈ kinds, k.name = c.name ∧ i ∈ k.writes ∧ i.codec ≠ .blank ∧ (i.codec ≠ .ref → Writes c.name i) := by
      rcases hp with hw | ⟨k, h1, h2, h3, h4⟩
      · obtain ⟨k, h1, h2, h3, h4, h5, -⟩ := id hw
        exact ⟨k, h1, h2, h3, h5, fun _ => hw⟩
      · exact ⟨k, h1, h2, h3, by rw [h4]; decide, fun h => absurd h4 h⟩
    have henc : (shown (valueSchema F init fresh) (fun n d f => dmxText n (d f)) (n, c.name, d)).2 =
        k.write (conv F) (cond d) (fun f => dmxText n (d f)) := by
      rw [← enc_kind F init fresh k hkm, hkn]; rfl
    have hat : getAttr (k.write (conv F) (cond d) (fun f => dmxText n (d f))) i.attr = some ((conv F).enc i.codec (dmxText n (d i.field))) := by
      rw [getAttr_write k (conv F) (cond d) _ i hiw hg (fun j hj hgj h => unique_write k hkm d (by rw [hkn]; exact hm) i j hiw hj hg hgj h)]
      unfold Node.Conv.text
      rw [if_neg hib]
    obtain ⟨hsome, hlink⟩ := table_cv k hkm i hiw hib
    obtain ⟨cv, hcv⟩ := Option.isSome_iff_exists.1 hsome
    have hform : formAt c.node i.attr = some (formOf cv) := by
      have := (table_forms k hkm i hiw).2 hib
      rw [hkn, hfor, hcv] at this
      exact this
    have htext : (conv F).enc i.codec (dmxText n (d i.field)) = enc cv (dmxText n (d i.field)) := by simp only [conv, hcv]
    refine ⟨formOf cv, (conv F).enc i.codec (dmxText n (d i.field)), ?_, ?_, ?_⟩
    · show formAt ((valueSchema F init fresh).node c.name) i.attr = _
      rw [hnode, hform]
    · rw [henc]; exact hat
    · rw [htext]
      by_cases hrf : i.codec = .ref
      · obtain ⟨u, hu⟩ := hr hrf
        rw [hrf] at hcv
        cases hcv
        rw [hu]
        exact rfl
      · have hw := hval hrf
        have hs := hi c.name i cv hw hcv
        have hs' : suits cv (d i.field) = true := by
          unfold suits at hs ⊢
          rw [ht i.field]
          exact hs
        exact value_tells n cv (d i.field) hs' (fun e => hlink hrf (by rw [hcv, e])) (hk i.field)

/-! ### The whole description -/

theorem oneByOne_map {α β : Type} (R : α → β → Prop) (g : α → β) : ∀ l : List α, (∀ a ∈ l, R a (g a)) → OneByOne R l (l.map g)
  | [], _ => trivial
  | a :: l, h => ⟨h a (List.mem_cons_self ..), oneByOne_map R g l (fun b hb => h b (List.mem_cons_of_mem _ hb))⟩

/-- **C84.** The nodes that the library writes for a description, without those that only collect others, are the objects of the
description one by one, in their order.  Each has the name that the standard has for the object and no attributes that the standard does
not have; each member that is written has its attribute, whose text is the value of the member in the notation of the attribute. -/
theorem C84_values_partial (F : Fl) (init : String → Members) (fresh : String → Obj Members) (hi : Suitable init) (o : Obj Members)
    (h : Tree classes o) (ht : Typed init o) (hk : AllKept o) (hm : OneMaster o) :
    OneByOne (fun x e => Shows x.1 x.2.1 x.2.2 e) (objects 2 o) (ownNodes (writeValues F init fresh o)) := by
  have e : ownNodes (writeValues F init fresh o) = (objects 2 o).map (shown (valueSchema F init fresh) (fun n d f => dmxText n (d f))) :=
    tree_nodes (valueSchema F init fresh) rfl _ o h 2
  rw [e]
  apply oneByOne_map
  intro x hx
  obtain ⟨p, h1, h2, h3, c, hc, hcn⟩ := place_of o h 2 x hx
  obtain ⟨n, cls, d⟩ := x
  simp only at h1 h2 h3 hcn ⊢
  subst hcn
  refine object_shows F init fresh hi n c hc d (ht p c.name d h1 h2) (fun f => ?_) (fun e => hm p d (by rw [← e]; exact h1) h2)
  rw [← h3]
  exact hk p c.name d h1 h2 f

/-! ### Nesting -/

theorem any_of {x : Option (List String)} {b : String} (h : x.any (fun l => decide (b ∈ l)) = true) : ∃ l, x = some l ∧ b ∈ l := by
  cases x with
  | none => cases h
  | some l => exact ⟨l, rfl, of_decide_eq_true h⟩

theorem table_nesting : ∀ c ∈ classes, ∀ s ∈ c.slots,
    (∀ h ∈ s.holds, ∃ l, nesting.lookup (s.wbox.getD c.node) = some l ∧ nodeFor h ∈ l) ∧
      (∀ b, s.wbox = some b → ∃ l, nesting.lookup c.node = some l ∧ b ∈ l) := by
  have h : ∀ c ∈ classes, ∀ s ∈ c.slots,
      (∀ h ∈ s.holds, ((nesting.lookup (s.wbox.getD c.node)).any (fun l => decide (nodeFor h ∈ l))) = true) ∧
        (s.wbox.all (fun b => (nesting.lookup c.node).any (fun l => decide (b ∈ l)))) = true := by decide +kernel
  intro c hc s hs
  obtain ⟨h1, h2⟩ := h c hc s hs
  refine ⟨fun x hx => ?_, fun b hb => ?_⟩
  · exact any_of (h1 x hx)
  · rw [hb] at h2
    exact any_of h2

theorem nestedAll_append (a b : List Elem) : NestedAll (a ++ b) ↔ NestedAll a ∧ NestedAll b := by
  induction a with
  | nil => simp [NestedAll]
  | cons e a ih => rw [List.cons_append, NestedAll, ih, NestedAll, and_assoc]

theorem nested_kids {S : Schema Members} : ∀ {k : List (Obj Members)}, (∀ o ∈ k, Nested (write S o)) → NestedAll (writeList S k) := by
  intro k
  induction k with
  | nil => intro _; exact trivial
  | cons o k ih => intro h; exact ⟨h o (List.mem_cons_self ..), ih (fun o ho => h o (List.mem_cons_of_mem _ ho))⟩

theorem writeList_names {S : Schema Members} {k : List (Obj Members)} {e : Elem} (h : e ∈ writeList S k) : ∃ o ∈ k, e = write S o := by
  induction k with
  | nil => rw [writeList] at h; cases h
  | cons o k ih =>
    rw [writeList] at h
    rcases List.mem_cons.1 h with rfl | h
    · exact ⟨o, List.mem_cons_self .., rfl⟩
    · obtain ⟨x, hx, h⟩ := ih h
      exact ⟨x, List.mem_cons_of_mem _ hx, h⟩

theorem slots_nested (S : Schema Members) (c : Class)
    (hnode : ∀ o : Obj Members, Tree classes o → (write S o).name = nodeFor o.cls) : ∀ (ks : List (List (Obj Members))) (ss : List Slot),
    (∀ s ∈ ss, (∀ h ∈ s.holds, ∃ l, nesting.lookup (s.wbox.getD c.node) = some l ∧ nodeFor h ∈ l) ∧
      (∀ b, s.wbox = some b → ∃ l, nesting.lookup c.node = some l ∧ b ∈ l)) →
    (∀ p ∈ ss.zip ks, Fits p.1 p.2) → (∀ k ∈ ks, ∀ o ∈ k, Tree classes o ∧ Nested (write S o)) →
    (∀ e ∈ writeSlots S ss ks, ∃ l, nesting.lookup c.node = some l ∧ e.name ∈ l) ∧ NestedAll (writeSlots S ss ks) := by
  intro ks
  induction ks with
  | nil => intro ss _ _ _; rw [writeSlots]; exact ⟨nofun, trivial⟩
  | cons k ks ih =>
    intro ss hs hf hk
    cases ss with
    | nil => rw [writeSlots]; exact ⟨nofun, trivial⟩
    | cons s ss =>
      obtain ⟨i1, i2⟩ := ih ss (fun s h => hs s (List.mem_cons_of_mem _ h)) (fun p hp => hf p (by rw [List.zip_cons_cons]; exact List.mem_cons_of_mem _ hp))
        (fun k h => hk k (List.mem_cons_of_mem _ h))
      obtain ⟨s1, s2⟩ := hs s (List.mem_cons_self ..)
      have hfit := hf (s, k) (by rw [List.zip_cons_cons]; exact List.mem_cons_self ..)
      have hkk := hk k (List.mem_cons_self ..)
      have hn := nested_kids (fun o ho => (hkk o ho).2)
      have names : ∀ e ∈ writeList S k, ∃ l, nesting.lookup (s.wbox.getD c.node) = some l ∧ e.name ∈ l := by
        intro e he
        obtain ⟨o, ho, rfl⟩ := writeList_names he
        rw [hnode o (hkk o ho).1]
        exact s1 o.cls (hfit.1 o ho)
      rw [writeSlots]
      refine ⟨fun e he => ?_, (nestedAll_append _ _).2 ⟨?_, i2⟩⟩
      · rcases List.mem_append.1 he with he | he
        · unfold Slot.wrap at he
          cases hb : s.wbox with
          | none =>
            rw [hb] at he names
            exact names e he
          | some b =>
            rw [hb] at he
            rw [List.mem_singleton] at he
            rw [he]
            exact s2 b hb
        · exact i1 e he
      · unfold Slot.wrap
        cases hb : s.wbox with
        | none => exact hn
        | some b =>
          rw [hb] at names
          exact ⟨⟨names, hn⟩, trivial⟩

theorem tree_nested (S : Schema Members) (hS : S.classes = classes) (o : Obj Members) (h : Tree classes o) : Nested (write S o) := by
  have hnode : ∀ o : Obj Members, Tree classes o → (write S o).name = nodeFor o.cls := by
    intro o ho
    cases ho with
    | mk c d ks hc hn hf hk =>
      rw [write]
      show S.node c.name = nodeFor c.name
      rw [(node_row S hS c hc).1]
      unfold nodeFor
      rw [(table_nodes c hc).1]
      rfl
  induction h with
  | mk c d ks hc hn hf hk ih =>
    obtain ⟨h1, h2⟩ := node_row S hS c hc
    rw [write, h1, h2]
    exact slots_nested S c hnode ks c.slots (table_nesting c hc) hf (fun k hk' o ho => ⟨hk k hk' o ho, ih k hk' o ho⟩)

/-- **C84, places.** Every node that is written is at a place where the standard allows it. -/
theorem C84_places (F : Fl) (init : String → Members) (fresh : String → Obj Members) (o : Obj Members) (h : Tree classes o) :
    Nested (writeValues F init fresh o) :=
  tree_nested (valueSchema F init fresh) rfl _ (tree_walk _ o h 2)

/-! ### Not vacuous -/

/-- A mode with a channel, of which the mode, the channel, the logical channel and the channel function are written. -/
example (F : Fl) (fresh : String → Obj Members) :
    let o := paint (given someValues) (someMode (fun _ => .undef))
    OneByOne (fun x e => Shows x.1 x.2.1 x.2.2 e) (objects 2 o) (ownNodes (writeValues F initial fresh o)) ∧
      (objects 2 o).map (fun x => x.2.1) = ["GdtfDmxMode", "GdtfDmxChannel", "GdtfDmxLogicalChannel", "GdtfDmxChannelFunction"] ∧
      Nested (writeValues F initial fresh o) := by
  intro o
  have ho := some_ordinary _ (tree_mode (fun _ => .undef)) (mode_classes _)
  exact ⟨C84_values_partial F initial fresh initial_suitable o ho.tree ho.typed ho.kept ho.master, by rfl,
    C84_places F initial fresh o ho.tree⟩

/-- A whole fixture. -/
example (F : Fl) (fresh : String → Obj Members) :
    let o := paint (given someValues) (sample (fun _ => .undef) [] [])
    OneByOne (fun x e => Shows x.1 x.2.1 x.2.2 e) (objects 2 o) (ownNodes (writeValues F initial fresh o)) ∧
      Nested (writeValues F initial fresh o) := by
  intro o
  have ho := some_ordinary _ (tree_sample (fun _ => .undef) [] [] (by simp) (by simp)) (sample_classes _)
  exact ⟨C84_values_partial F initial fresh initial_suitable o ho.tree ho.typed ho.kept ho.master, C84_places F initial fresh o ho.tree⟩

/-- A notation says one thing: a break 0 is not written as a number. -/
example : ¬ Says 2 .brk (.brk 0) "0".toList := by
  intro h
  exact absurd (show "0".toList = "Overwrite".toList from h) (by decide)

/-- The second number of a channel value is the number of bytes. -/
example : ¬ Says 2 .dmx (.dmx 7) "7/1".toList := by
  rintro ⟨a, b, ⟨⟨-, ha⟩, -⟩, ⟨⟨hb, -⟩, hb2⟩, e⟩
  match a, e with
  | [], e => exact absurd (List.head_eq_of_cons_eq e) (by decide)
  | [x], e =>
    have h : b = ['1'] := ((List.cons.inj (List.cons.inj e).2).2).symm
    rw [h] at hb2
    exact absurd hb2 (by decide)
  | x :: y :: a, e =>
    have h : y = '/' := (List.cons.inj (List.cons.inj e).2).1.symm
    have := ha y (by simp)
    rw [h] at this
    exact absurd this (by decide)

end Verif.Gdtf
