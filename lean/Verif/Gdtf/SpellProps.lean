import Verif.Gdtf.SpellValues
import Verif.Gdtf.FormatProps
import Verif.Mvr.SpellProps

/-!
# C92: a description in the notation of the GDTF standard is read as what it says, in any spelling, and nothing in it is overlooked
-/

namespace Verif.Gdtf

open Spec
open Verif.Lookup (Txt)
open Verif.Str Verif.Real Verif.Text Verif.Dmx Verif.Enum
open Verif.Node (Item Kind kinds getAttr)
open Verif.Mvr.Spec (Num Whole Alike' AnyWord RoundedNum RoundedV upper Spaces)
open Verif.Mvr (same_text)

/-! ### Values -/

/-- The statement that reads the name of a colour space. -/
def nameItem : Item := ⟨"Name", "fUniqueName", .text, .always⟩

theorem custom_read (F : Fl) (m : Memory) (node : Attrs) (h : Custom node) (l : List Item)
    (hp : ([nameItem] ++ modeItem :: l).Pairwise (fun i j => i.field ≠ j.field)) :
    readNow F ([nameItem] ++ modeItem :: l) node (ctor m "GdtfColorSpace") "fColorSpace" = .space .cCustom := by
  obtain ⟨t, s, ht, hs, hc⟩ := h
  have e := readNow_field F node [nameItem] l modeItem (ctor m "GdtfColorSpace") hp rfl
  have hm : ctor m "GdtfColorSpace" "fColorSpace" = .space .csRGB := by
    rw [ctor_made m _ _ (by decide +kernel)]
    decide +kernel
  show readNow F _ node _ modeItem.field = _
  rw [e]
  show (conv F).dec modeItem.codec (getAttr node "Mode") (ctor m "GdtfColorSpace" "fColorSpace") = _
  rw [ht, hm]
  simp only [conv, mode_cv, dec, Option.getD_some, spelled_chars hs]
  rw [C18_ColorSpace.roundtrip .cCustom s _ (same_text hc)]

/-- The member with the attribute. -/
theorem value_there (F : Fl) (m : Memory) (fresh : String → Obj Members) (n : Nat) (k : Kind) (hk : k ∈ kinds) (j : Item) (hj : j ∈ k.reads)
    (node : Attrs) (t : Txt) (h : getAttr node j.attr = some t) (hg : j.guard ≠ .always → Custom node)
    (hs : k.name = "GdtfFixture" → j.attr = "Name" → (47 : BitVec 16) ∉ t) :
    valueOf F m fresh n k.name node j.field = dmxValue F n ((conv F).dec j.codec (some t) (ctor m k.name j.field)) := by
  obtain ⟨o1, o2, o3, o4⟩ := table_reads_own k hk j hj
  have hrd : unread k.name node (ctor m k.name) (readNow F k.reads node (ctor m k.name)) j.field =
      (conv F).dec j.codec (some t) (ctor m k.name j.field) := by
    rw [unread_there]
    · rw [← h]
      rcases table_guard k hk j hj with g | ⟨rfl, g⟩
      · exact readNow_mem F k hk node _ j hj g
      · have hcust := hg (by rw [g]; simp)
        have key : ∀ (pre post : List Item) (l : List Item), Node.kColorSpace.reads = pre ++ j :: post →
            pre = [nameItem] ++ modeItem :: l →
            readNow F Node.kColorSpace.reads node (ctor m "GdtfColorSpace") j.field =
              (conv F).dec j.codec (getAttr node j.attr) (ctor m "GdtfColorSpace" j.field) := by
          intro pre post l e1 e2
          have ht := Node.table_read _ hk
          unfold Node.readOk at ht
          rw [Bool.and_eq_true, decide_eq_true_iff, e1] at ht
          rw [e1]
          apply readNow_field F node pre post j _ ht.1
          rw [g]
          have hpp := (List.pairwise_append.1 ht.1).1
          rw [e2] at hpp ⊢
          have hc := custom_read F m node hcust l hpp
          show cond _ _ = true
          unfold cond
          rw [if_pos rfl, hc]
          rfl
        simp only [Node.kColorSpace, List.mem_cons, List.not_mem_nil, or_false] at hj
        rcases hj with rfl | rfl | rfl | rfl | rfl | rfl
        · cases g
        · cases g
        · exact key _ _ [] rfl rfl
        · exact key _ _ [_] rfl rfl
        · exact key _ _ [_, _] rfl rfl
        · exact key _ _ [_, _, _] rfl rfl
    · intro s hs1 h1 h2 h3
      rw [table_skips_read k hk j hj s hs1 h1 h2, h] at h3
      cases h3
  unfold valueOf
  rw [schema_dec F (ctor m) fresh k hk node]
  by_cases hfix : k.name = "GdtfFixture" ∧ j.field = "fName"
  · obtain ⟨e1, e2⟩ := hfix
    have hname : ∀ k ∈ kinds, ∀ j ∈ k.reads, k.name = "GdtfFixture" → j.field = "fName" → j.attr = "Name" := by decide +kernel
    have hno := hs e1 (hname k hk j hj e1 e2)
    have hc := o4 e1 e2
    have ht : (conv F).dec j.codec (some t) (ctor m k.name j.field) = .text t := by rw [hc]; rfl
    rw [ht] at hrd ⊢
    rw [e1, e2] at hrd ⊢
    unfold after put
    rw [if_neg (by decide), if_neg (by decide), if_pos rfl]
    simp only [show ("fName" = "fHasLinkedGuid") = False from by simp, if_false, if_true]
    rw [hrd]
    show Val.text (slashes t) = Val.text t
    rw [slashes_id t hno]
  · rw [after_other _ _ _ _ o1 o2 o3 (fun a b => hfix ⟨a, b⟩), hrd]

/-- The converters are those for the notation. -/
theorem table_converters : ∀ k ∈ kinds, ∀ j ∈ k.reads, j.codec = .text ∨ (match cvOf j.codec, formAt (nodeFor k.name) j.attr with
      | some cv, some form => decide (formOf cv = form ∧ cv ≠ .link ∧ cv ≠ .text) && suits cv (ctor zeros k.name j.field)
      | _, none => true
      | _, _ => false) = true := by
  decide +kernel

theorem suits_type {cv : Cv} {v w : Val} (h : typeOf v = typeOf w) (hs : suits cv v = true) : suits cv w = true := by
  unfold suits at *
  rw [← h]
  exact hs

/-- The type of a member does not depend on the memory. -/
theorem ctor_type (m m' : Memory) (cls f : String) : typeOf (ctor m cls f) = typeOf (ctor m' cls f) := by
  unfold ctor
  split
  · rename_i p _
    cases p.2 <;> rfl
  · rfl

/-- C92, values (up to exponents, channel values with a number of bytes that does not divide that of the channel, slashes in the name of the fixture
type, and the ranges named in `Kept`): the text of an attribute, in the notation of the standard and in any spelling, is read as the value it
says, whatever else is in the node and whatever was in the memory.  (The colours of a colour space count only if its mode is "Custom".) -/
theorem C92_values_partial (F : Fl) (m : Memory) (fresh : String → Obj Members) (n : Nat) (hn : IsReso n) (cls attr f node : String) (form : Form)
    (hr : ReadFrom cls attr f) (hnode : nodeNames.lookup cls = some node) (hf : formAt node attr = some form) (attrs : Attrs) (t : Txt)
    (ht : getAttr attrs attr = some t) (v : Val) (hty : typeOf v = typeOf (ctor m cls f)) (hk : Kept n v) (hv : TellsAny n form v t)
    (hcolor : cls = "GdtfColorSpace" → form = .color → Custom attrs) (hslash : cls = "GdtfFixture" → attr = "Name" → (47 : BitVec 16) ∉ t) :
    Rounded v (valueOf F m fresh n cls attrs f) := by
  obtain ⟨k, hk', rfl, j, hj, rfl, rfl⟩ := hr
  have hnf : nodeFor k.name = node := by unfold nodeFor; rw [hnode]; rfl
  have hguard : j.guard ≠ .always → Custom attrs := by
    intro hg
    have htab : ∀ k ∈ kinds, ∀ j ∈ k.reads, j.guard ≠ .always → k.name = "GdtfColorSpace" ∧ formAt (nodeFor k.name) j.attr = some .color := by
      decide +kernel
    obtain ⟨e1, e2⟩ := htab k hk' j hj hg
    rw [hnf, hf] at e2
    exact hcolor e1 (Option.some.inj e2)
  rw [value_there F m fresh n k hk' j hj attrs t ht hguard hslash]
  by_cases hc : j.codec = .text
  · obtain ⟨t1, t2, -, -⟩ := table_made_texts k hk' j hj hc
    rw [ctor_made m _ _ t2, t1] at hty
    rw [hc]
    cases v <;> first | (simp [typeOf] at hty; done) | skip
    have hv : t = _ := hv
    rw [← hv]
    rfl
  · have htab := (table_converters k hk' j hj).resolve_left hc
    rw [hnf, hf] at htab
    cases hcv : cvOf j.codec with
    | none => rw [hcv] at htab; cases htab
    | some cv =>
      rw [hcv] at htab
      simp only [Bool.and_eq_true, decide_eq_true_eq] at htab
      obtain ⟨⟨h1, h2, h3⟩, h4⟩ := htab
      have hs : suits cv v = true := suits_type ((ctor_type zeros m _ _).trans hty.symm) h4
      have hx : v.ctorIdx ≠ 0 := by
        intro e
        cases v <;> first | (simp [Val.ctorIdx] at e; done) | skip
        exact h3 (cv_of hs rfl)
      have hv' : ∃ s, Spelled t s ∧ Means n form v s := by
        cases v <;> first | exact absurd rfl hx | exact hv
      obtain ⟨s, hs1, hs2⟩ := hv'
      rw [← h1] at hs2
      simp only [conv, hcv]
      exact means_read F n hn cv v _ t s hs h2 hty.symm hk (spelled_chars hs1) hx hs2

/-- C92, nothing is overlooked: every attribute of the standard is read, by the class for its node, into one member. -/
theorem C92_every_attribute (node attr : String) (form : Form) (h : formAt node attr = some form) :
    ∃ cls f, nodeNames.lookup cls = some node ∧ ReadFrom cls attr f ∧ ∀ f', ReadFrom cls attr f' → f' = f := by
  have htab : ∀ p ∈ forms, ∀ q ∈ p.2, ∃ k ∈ kinds, nodeNames.lookup k.name = some p.1 ∧ ∃ j ∈ k.reads, j.attr = q.1 := by decide +kernel
  have hone : ∀ k ∈ kinds, ∀ j ∈ k.reads, ∀ j' ∈ k.reads, j'.attr = j.attr → j'.field = j.field := by decide +kernel
  unfold formAt at h
  cases hl : forms.lookup node with
  | none => rw [hl] at h; cases h
  | some l =>
    rw [hl] at h
    have h1 := List.lookup_eq_some_iff.1 hl
    have h2 := List.lookup_eq_some_iff.1 (show l.lookup attr = some form from h)
    obtain ⟨a, b, e1, -⟩ := h1
    obtain ⟨c, d, e2, -⟩ := h2
    obtain ⟨k, hk, hn, j, hj, ha⟩ := htab (node, l) (by rw [e1]; simp) (attr, form) (by rw [e2]; simp)
    simp only at hn ha
    refine ⟨k.name, j.field, hn, ⟨k, hk, rfl, j, hj, ha, rfl⟩, ?_⟩
    rintro f' ⟨k', hk', en, j', hj', ea, rfl⟩
    have : k' = k := by
      have t1 := table_find k hk
      have t2 := table_find k' hk'
      rw [en, t1] at t2
      exact (Option.some.inj t2).symm
    subst this
    exact hone k' hk j hj j' hj' (ea.trans ha.symm)

/-! ### Nodes in nodes -/

/-- An object read from a node that is in a channel with `n` bytes (2 outside of channels). -/
def reading (F : Fl) (m : Memory) (fresh : String → Obj Members) (n : Nat) (cls : String) (e : Elem) : Obj Members :=
  walk (fun n d f => dmxValue F n (d f)) n (read (valueSchema F (ctor m) fresh) cls e)

theorem reading_eq (F : Fl) (m : Memory) (fresh : String → Obj Members) (cls : String) (e : Elem) :
    readValues F (ctor m) fresh cls e = reading F m fresh 2 cls e := rfl

/-- The number of bytes in the node: a channel has those of its offset. -/
def bytesIn (F : Fl) (m : Memory) (fresh : String → Obj Members) (n : Nat) (cls : String) (e : Elem) : Nat :=
  if cls = "GdtfDmxChannel" then channelBytes (valueOf F m fresh n cls e.attrs "fCoarse+fFine+fUltra+fUber") else n

theorem bytes_dmx (F : Fl) (n : Nat) (v : Val) : channelBytes (dmxValue F n v) = channelBytes v := by
  cases v <;> simp only [dmxValue]
  · rename_i t
    generalize readDmx F n (toChars t) 0 = x
    cases x <;> rfl
  · rename_i t
    generalize readDmxNone F n (toChars t) 0 = x
    cases x <;> rfl

theorem reading_parts (F : Fl) (m : Memory) (fresh : String → Obj Members) (n : Nat) (cls : String) (e : Elem) :
    reading F m fresh n cls e = .mk cls (fun f => valueOf F m fresh (bytesIn F m fresh n cls e) cls e.attrs f)
      (((valueSchema F (ctor m) fresh).slots cls).map (fun s => (s.read fresh (read (valueSchema F (ctor m) fresh)) e).map
        (walk (fun n d f => dmxValue F n (d f)) (bytesIn F m fresh n cls e)))) := by
  have hb : reso n cls ((valueSchema F (ctor m) fresh).dec cls e.attrs) = bytesIn F m fresh n cls e := by
    rw [reso_eq]
    unfold bytesIn valueOf
    rw [bytes_dmx]
  unfold reading
  rw [read_eq, walk, hb, walkAll_map, List.map_map]
  rfl

/-- C92, values of an object: those of its attributes, with the number of bytes of the channel. -/
theorem C92_object (F : Fl) (m : Memory) (fresh : String → Obj Members) (n : Nat) (cls : String) (e : Elem) (f : String) :
    ValuesOf (reading F m fresh n cls e) f = valueOf F m fresh (bytesIn F m fresh n cls e) cls e.attrs f := by
  rw [reading_parts]
  rfl

/-- Where the nodes of a name are, among the slots of a class. -/
def slotFor (cls : String) (box : Option String) (c : String) : Option (Nat × Slot) :=
  ((classes.find? (fun k => k.name == cls)).bind (fun k => k.slots.zipIdx.find? (fun p => p.1.rbox == box && p.1.accepts.any (fun a => a.1 == c)))).map
    (fun p => (p.2, p.1))

/-- The slot is the one that the standard has in mind. -/
def slotRight (cls : String) (box : Option String) (c : String) : Bool :=
  match slotFor cls box c with
  | none => c == "FTPreset"
  | some (_, s) =>
    if c ∈ single ∨ (c = "ColorSpace" ∧ box = none) then s.how != .many && s.accepts == [(c, classFor cls c)]
    else s.how == .many && s.accepts == (alongside c).map (fun g => (g, classFor cls g))

/-- Everything that has a place in the node. -/
def places (node : String) : List (Option String × String) :=
  ((nesting.lookup node).getD []).flatMap (fun c => if c ∈ collects then ((nesting.lookup c).getD []).map (fun d => (some c, d)) else [(none, c)])

theorem places_complete {node c : String} {box : Option String} (h : Placed node box c) : (box, c) ∈ places node := by
  unfold places
  cases box with
  | none =>
    obtain ⟨l, hl, hc, hn⟩ := h
    rw [hl]
    exact List.mem_flatMap.2 ⟨c, hc, by rw [if_neg hn]; simp⟩
  | some b =>
    obtain ⟨hb, ⟨l, hl, hbl⟩, l', hl', hc⟩ := h
    rw [hl]
    refine List.mem_flatMap.2 ⟨b, hbl, ?_⟩
    rw [if_pos hb, hl']
    exact List.mem_map.2 ⟨c, hc, rfl⟩

theorem table_slots : ∀ p ∈ nodeNames, ∀ q ∈ places p.2, slotRight p.1 q.1 q.2 = true := by decide +kernel

theorem slotFor_at {cls c : String} {box : Option String} {i : Nat} {s : Slot} (h : slotFor cls box c = some (i, s)) (F : Fl) (m : Memory)
    (fresh : String → Obj Members) : ((valueSchema F (ctor m) fresh).slots cls)[i]? = some s ∧ s.rbox = box := by
  unfold slotFor at h
  unfold Schema.slots Schema.row valueSchema
  simp only
  cases hk : classes.find? (fun k => k.name == cls) with
  | none => rw [hk] at h; cases h
  | some k =>
    rw [hk] at h
    simp only [Option.bind_some, Option.map_some, Option.getD_some] at h ⊢
    cases hz : k.slots.zipIdx.find? (fun p => p.1.rbox == box && p.1.accepts.any (fun a => a.1 == c)) with
    | none => rw [hz] at h; cases h
    | some p =>
      rw [hz] at h
      have e : (p.2, p.1) = (i, s) := Option.some.inj h
      have h1 := List.find?_some hz
      have h2 := List.mem_of_find?_eq_some hz
      rw [Bool.and_eq_true, beq_iff_eq] at h1
      obtain ⟨p1, p2⟩ := p
      simp only [Prod.mk.injEq] at e
      obtain ⟨rfl, rfl⟩ := e
      exact ⟨List.mem_zipIdx_iff_getElem?.1 h2, h1.1⟩

theorem place_nodesAt (s : Slot) (e : Elem) : s.place e = nodesAt e s.rbox := by
  unfold Slot.place nodesAt Elem.child
  cases s.rbox with
  | none => rfl
  | some b =>
    simp only
    cases e.kids.find? (fun c => c.name == b) <;> rfl

/-- C92, lists: nothing is overlooked, and nothing else is there.  For the nodes of every name that the standard has in a node (or in a node in it that
collects them) there is a member of the class; the objects in it are those of all these nodes, in their order, each read in the same way.
Geometries of all kinds are in one list. -/
theorem C92_lists (F : Fl) (m : Memory) (fresh : String → Obj Members) (cls node c : String) (box : Option String)
    (hnode : nodeNames.lookup cls = some node) (hp : Placed node box c) (hs : ¬ Single box c) (hc : c ≠ "FTPreset") :
    ∃ i : Nat, ∀ n e, (Kids (reading F m fresh n cls e))[i]? = some ((nodesAt e box).filterMap (fun x =>
      ((alongside c).find? (fun g => sameWord x.name g)).map (fun g => reading F m fresh (bytesIn F m fresh n cls e) (classFor cls g) x))) := by
  obtain ⟨a, b, e1, -⟩ := List.lookup_eq_some_iff.1 hnode
  have ht := table_slots (cls, node) (by rw [e1]; simp) (box, c) (places_complete hp)
  unfold slotRight at ht
  simp only at ht
  cases hsl : slotFor cls box c with
  | none => rw [hsl] at ht; exact absurd (beq_iff_eq.1 ht) hc
  | some p =>
    obtain ⟨i, s⟩ := p
    rw [hsl] at ht
    simp only at ht
    rw [if_neg (show ¬ (c ∈ single ∨ (c = "ColorSpace" ∧ box = none)) from hs), Bool.and_eq_true, beq_iff_eq, beq_iff_eq] at ht
    obtain ⟨h1, h2⟩ := ht
    obtain ⟨h3, h4⟩ := slotFor_at hsl F m fresh
    refine ⟨i, fun n e => ?_⟩
    rw [reading_parts]
    simp only [Kids]
    rw [List.getElem?_map, h3, Option.map_some]
    unfold Slot.read
    simp only [h1]
    rw [place_nodesAt, h4, List.map_filterMap]
    congr 2
    funext x
    unfold Slot.created
    have hsame : (fun p : String × String => s.same x.name p.1) ∘ (fun g => (g, classFor cls g)) = fun g => sameWord x.name g := by
      funext g
      show s.same x.name g = _
      unfold Slot.same
      rw [if_pos h1]
      rfl
    rw [h2, List.find?_map, hsame]
    cases (alongside c).find? (fun g => sameWord x.name g) <;> rfl

/-- C92, single nodes: the first node of the name at the place is the one that is read. -/
theorem C92_single (F : Fl) (m : Memory) (fresh : String → Obj Members) (cls node c : String) (box : Option String)
    (hnode : nodeNames.lookup cls = some node) (hp : Placed node box c) (hs : Single box c) :
    ∃ i : Nat, ∀ n e x, (nodesAt e box).find? (fun x => x.name == c) = some x →
      (Kids (reading F m fresh n cls e))[i]? = some [reading F m fresh (bytesIn F m fresh n cls e) (classFor cls c) x] := by
  obtain ⟨a, b, e1, -⟩ := List.lookup_eq_some_iff.1 hnode
  have ht := table_slots (cls, node) (by rw [e1]; simp) (box, c) (places_complete hp)
  unfold slotRight at ht
  simp only at ht
  cases hsl : slotFor cls box c with
  | none =>
    rw [hsl] at ht
    have := beq_iff_eq.1 ht
    subst this
    rcases hs with hs | ⟨hs, -⟩
    · exact absurd hs (by decide)
    · exact absurd hs (by decide)
  | some p =>
    obtain ⟨i, s⟩ := p
    rw [hsl] at ht
    simp only at ht
    rw [if_pos (show c ∈ single ∨ (c = "ColorSpace" ∧ box = none) from hs), Bool.and_eq_true, bne_iff_ne, beq_iff_eq] at ht
    obtain ⟨h1, h2⟩ := ht
    obtain ⟨h3, h4⟩ := slotFor_at hsl F m fresh
    refine ⟨i, fun n e x hx => ?_⟩
    rw [reading_parts]
    simp only [Kids]
    rw [List.getElem?_map, h3, Option.map_some]
    have hcr : ∀ y, s.created y = if y.name == c then some (classFor cls c) else none := by
      intro y
      unfold Slot.created Slot.same
      rw [h2]
      simp only [List.find?_cons, List.find?_nil, if_neg h1]
      cases y.name == c <;> rfl
    have hfound : ∃ l, (s.place e).filterMap (fun y => (s.created y).map (fun k => read (valueSchema F (ctor m) fresh) k y)) =
        read (valueSchema F (ctor m) fresh) (classFor cls c) x :: l := by
      rw [place_nodesAt, h4]
      obtain ⟨hxc, pre, post, epp, hpre⟩ := List.find?_eq_some_iff_append.1 hx
      rw [epp, List.filterMap_append, List.filterMap_cons, hcr, if_pos hxc]
      have : pre.filterMap (fun y => (s.created y).map (fun k => read (valueSchema F (ctor m) fresh) k y)) = [] := by
        rw [List.filterMap_eq_nil_iff]
        intro y hy
        have := hpre y hy
        rw [hcr, if_neg (by simpa using this)]
        rfl
      rw [this]
      exact ⟨_, rfl⟩
    obtain ⟨l, hl⟩ := hfound
    unfold Slot.read
    simp only [hl]
    cases hh : s.how with
    | many => exact absurd hh h1
    | first => rfl
    | embedded => rfl

/-! ### A violation -/

/-- A channel value with another number of bytes than the channel. -/
def halfWord : Attrs := [("Default", toTxt "255/2".toList)]

/-- **Violation of C92**: "255/2" has the bytes 0 and 255; in a channel with three bytes that is 0, 255, 0 for the standard (65280), but the library
scales the number, which gives 65281. -/
theorem C92_mirror_violated (F : Fl) (m : Memory) (fresh : String → Obj Members) :
    valueOf F m fresh 3 "GdtfDmxChannelFunction" halfWord "fDefaultValue" = .dmx 65281 ∧ mirrored 2 3 255 = 65280 := by
  refine ⟨?_, by decide⟩
  have h := value_there F m fresh 3 Node.kDmxChannelFunction (by decide +kernel) ⟨"Default", "fDefaultValue", .val "ConvertDMXValue", .always⟩
    (by decide +kernel) halfWord (toTxt "255/2".toList) (by decide +kernel) (fun h => absurd rfl h) (fun h => absurd h (by decide))
  refine Eq.trans h ?_
  have hc : (conv F).dec (.val "ConvertDMXValue") (some (toTxt "255/2".toList)) (ctor m "GdtfDmxChannelFunction" "fDefaultValue") =
      .raw (toTxt "255/2".toList) := by
    have h1 : ctor m "GdtfDmxChannelFunction" "fDefaultValue" = .dmx 0 := by
      rw [ctor_made m _ _ (by decide +kernel)]
      decide +kernel
    have h2 : cvOf (.val "ConvertDMXValue") = some .dmx := by decide +kernel
    rw [h1]
    simp only [conv, h2]
    rfl
  rw [show Node.kDmxChannelFunction.name = "GdtfDmxChannelFunction" from rfl, hc]
  simp only [dmxValue]
  have e : toChars (toTxt "255/2".toList) = natText 255 ++ '/' :: natText 2 := by decide +kernel
  obtain ⟨h1, -⟩ := read_rescaled F 2 3 255 0 ⟨by decide, by decide⟩ ⟨by decide, by decide⟩ (by decide)
  have h2 := C12_accuracy F 2 3 255 0 _ ⟨by decide, by decide⟩ ⟨by decide, by decide⟩ (by decide) h1
  rw [e, h1]
  generalize rescaled F 2 3 255 = w at h2
  rw [abs_le] at h2
  norm_num [maxOf] at h2
  have l1 : (65280 : ℚ) < w := by linarith [h2.1]
  have l2 : (w : ℚ) < 65282 := by linarith [h2.2]
  have : w = 65281 := by
    have l1 : 65280 < w := by exact_mod_cast l1
    have l2 : w < 65282 := by exact_mod_cast l2
    omega
  rw [this]
  rfl

/-! ### Instances -/

theorem digits_of {s : List Char} (h1 : s ≠ []) (h2 : s.all (fun c => decide (48 ≤ c.toNat ∧ c.toNat ≤ 57)) = true) : Digits s :=
  ⟨h1, by simpa using h2⟩

/-- An angle with a plus, a zero too much and a space. -/
example (F : Fl) (m : Memory) (fresh : String → Obj Members) :
    Rounded (.real ⟨false, 51 / 2⟩) (valueOf F m fresh 2 "GdtfGeometryLamp" [("BeamAngle", toTxt " +25.50".toList)] "fBeamAngle") := by
  refine C92_values_partial F m fresh 2 ⟨by decide, by decide⟩ "GdtfGeometryLamp" "BeamAngle" "fBeamAngle" "Beam" .float
    (readFrom_of (by decide +kernel)) (by decide +kernel) (by decide +kernel) _ (toTxt " +25.50".toList) (by decide +kernel) _ ?_ ?_ ?_
    (fun h => absurd h (by decide)) (fun h => absurd h (by decide))
  · rw [ctor_made m _ _ (by decide +kernel)]
    decide +kernel
  · show (0 : ℚ) ≤ 51 / 2
    norm_num
  · refine ⟨" +25.50".toList, by show _ = _; decide +kernel, ?_⟩
    refine Mvr.num_of [' '] ['+'] "25.50".toList [] rfl (.inr (.inl ⟨rfl, rfl⟩)) ?_ rfl rfl
    refine .inl (.inr ⟨['2', '5'], ['5', '0'], digits_of (by simp) (by decide), rfl, ?_⟩)
    rw [show decimal (['2', '5'] ++ ['5', '0']) = 2550 from rfl]
    norm_num

/-- A byte for a channel with two: the same byte again, or zero behind an "s". -/
example (F : Fl) (m : Memory) (fresh : String → Obj Members) :
    valueOf F m fresh 2 "GdtfDmxChannelFunction" [("DMXFrom", toTxt "128/1".toList)] "fAdressStart" = .dmx 32896 ∧
    valueOf F m fresh 2 "GdtfDmxChannelFunction" [("DMXFrom", toTxt "0128/1s".toList)] "fAdressStart" = .dmx 32768 := by
  have key : ∀ (t : String) (v : Nat), v ≤ 65535 → getAttr [("DMXFrom", toTxt t.toList)] "DMXFrom" = some (toTxt t.toList) →
      Spelled (toTxt t.toList) t.toList → Channel 2 v t.toList →
      Rounded (.dmx v) (valueOf F m fresh 2 "GdtfDmxChannelFunction" [("DMXFrom", toTxt t.toList)] "fAdressStart") := by
    intro t v hv h1 h2 h3
    refine C92_values_partial F m fresh 2 ⟨by decide, by decide⟩ "GdtfDmxChannelFunction" "DMXFrom" "fAdressStart" "ChannelFunction" .dmx
      (readFrom_of (by decide +kernel)) (by decide +kernel) (by decide +kernel) _ (toTxt t.toList) h1 _ ?_ ?_ ⟨_, h2, h3⟩
      (fun h => absurd h (by decide)) (fun h => absurd h (by decide))
    · rw [ctor_made m _ _ (by decide +kernel)]
      show Ty.dmx = _
      decide +kernel
    · show v ≤ 256 ^ 2 - 1
      omega
  refine ⟨(key "128/1" 32896 (by decide) (by decide +kernel) (by show _ = _; decide +kernel) ?_).symm,
    (key "0128/1s" 32768 (by decide) (by decide +kernel) (by show _ = _; decide +kernel) ?_).symm⟩
  · exact ⟨1, 128, "128".toList, ['1'], by decide, by decide, by decide, ⟨digits_of (by simp) (by decide), rfl⟩, ⟨digits_of (by simp) (by decide), rfl⟩,
      .inl ⟨rfl, by decide, by decide⟩⟩
  · exact ⟨1, 128, "0128".toList, ['1'], by decide, by decide, by decide, ⟨digits_of (by simp) (by decide), rfl⟩, ⟨digits_of (by simp) (by decide), rfl⟩,
      .inr ⟨rfl, by decide⟩⟩

/-- The unit of an attribute, in lower case. -/
example (F : Fl) (m : Memory) (fresh : String → Obj Members) :
    valueOf F m fresh 2 "GdtfAttribute" [("PhysicalUnit", toTxt "percent".toList)] "fPhysicalUnit" = .unit .cPercent := by
  refine (C92_values_partial F m fresh 2 ⟨by decide, by decide⟩ "GdtfAttribute" "PhysicalUnit" "fPhysicalUnit" "Attribute" (.oneOf units)
    (readFrom_of (by decide +kernel)) (by decide +kernel) (by decide +kernel) _ (toTxt "percent".toList) (by decide +kernel) (.unit .cPercent) ?_ trivial
    ⟨"percent".toList, by show _ = _; decide +kernel, rfl, "Percent", by decide +kernel, by show _ = _; decide +kernel⟩
    (fun h => absurd h (by decide)) (fun h => absurd h (by decide))).symm
  rw [ctor_made m _ _ (by decide +kernel)]
  decide +kernel

/-- The colours of a colour space count if its mode is "custom". -/
example : Custom [("Mode", toTxt "custom".toList), ("Red", toTxt "0.6,0.3,1".toList)] :=
  ⟨toTxt "custom".toList, "custom".toList, by decide +kernel, by show _ = _; decide +kernel, by show _ = _; decide +kernel⟩

/-- Slots of a wheel, one in lower case, and something else between them. -/
def wheelNode : Elem := .mk "Wheel" [] [.mk "slot" [] [], .mk "Other" [] [], .mk "Slot" [("Name", toTxt "Open".toList)] []]

example (F : Fl) (m : Memory) (fresh : String → Obj Members) : ∃ i : Nat, (Kids (reading F m fresh 2 "GdtfWheel" wheelNode))[i]? =
    some [reading F m fresh 2 "GdtfWheelSlot" (.mk "slot" [] []), reading F m fresh 2 "GdtfWheelSlot" (.mk "Slot" [("Name", toTxt "Open".toList)] [])] := by
  obtain ⟨i, h⟩ := C92_lists F m fresh "GdtfWheel" "Wheel" "Slot" none (by decide +kernel) ⟨_, rfl, by decide, by decide⟩
    (by rintro (h | ⟨h, -⟩) <;> exact absurd h (by decide)) (by decide)
  refine ⟨i, (h 2 wheelNode).trans ?_⟩
  rfl

/-- The channels of a mode are in a node of their own. -/
example : Placed "DMXMode" (some "DMXChannels") "DMXChannel" := ⟨by decide, ⟨_, rfl, by decide⟩, _, rfl, by decide⟩

/-- The first of two colour spaces. -/
example (F : Fl) (m : Memory) (fresh : String → Obj Members) (a b : Elem) (ha : a.name = "ColorSpace") : ∃ i : Nat,
    (Kids (reading F m fresh 2 "GdtfPhysicalDescriptions" (.mk "PhysicalDescriptions" [] [a, b])))[i]? = some [reading F m fresh 2 "GdtfColorSpace" a] := by
  obtain ⟨i, h⟩ := C92_single F m fresh "GdtfPhysicalDescriptions" "PhysicalDescriptions" "ColorSpace" none (by decide +kernel)
    ⟨_, rfl, by decide, by decide⟩ (.inr ⟨rfl, rfl⟩)
  refine ⟨i, (h 2 _ a ?_).trans ?_⟩
  · show List.find? _ [a, b] = _
    rw [List.find?_cons, ha]
    rfl
  · rfl

end Verif.Gdtf
