import Verif.Gdtf.ValueLemmas
import Verif.Gdtf.Props

/-!
# C80: the values of a GDTF description come back
-/

namespace Verif.Gdtf

open Spec
open Verif.Lookup (Txt)
open Verif.Real Verif.Text Verif.Dmx Verif.Enum
open Verif.Mvr.Spec (Near NearV)
open Verif.Node (Item Kind kinds getAttr getAttr_write)

/-! ### Places -/

theorem bytes_channel (v : Val) : bytes v = channelBytes v := by
  cases v <;> try rfl
  rename_i o
  unfold bytes channelBytes
  by_cases h1 : o.coarse = 0
  · simp [h1]
  by_cases h2 : o.fine = 0
  · simp [h1, h2]
  by_cases h3 : o.ultra = 0
  · simp [h1, h2, h3]
  by_cases h4 : o.uber = 0
  · simp [h1, h2, h3, h4]
  · simp [h1, h2, h3, h4]

theorem walkList_map (f : Nat → Members → Members) (n : Nat) (k : List (Obj Members)) : walkList f n k = k.map (walk f n) := by
  induction k with
  | nil => simp [walkList]
  | cons o k ih => rw [walkList, ih, List.map_cons]

theorem walkAll_map (f : Nat → Members → Members) (n : Nat) (ks : List (List (Obj Members))) :
    walkAll f n ks = ks.map (fun k => k.map (walk f n)) := by
  induction ks with
  | nil => simp [walkAll]
  | cons k ks ih => rw [walkAll, ih, List.map_cons, walkList_map]

theorem walk_cls (f : Nat → Members → Members) (n : Nat) (o : Obj Members) : (walk f n o).cls = o.cls := by
  cases o; simp [walk, Obj.cls]

theorem kid_walk (f : Nat → Members → Members) (n : Nat) (ks : List (List (Obj Members))) (i j : Nat) :
    ((walkAll f n ks)[i]?).bind (fun k => k[j]?) = ((ks[i]?).bind (fun k => k[j]?)).map (walk f n) := by
  rw [walkAll_map, List.getElem?_map]
  cases ks[i]? with
  | none => rfl
  | some k => simp [List.getElem?_map]

theorem reso_eq (n : Nat) (cls : String) (d : Members) :
    reso n cls d = if cls = "GdtfDmxChannel" then channelBytes (d "fCoarse+fFine+fUltra+fUber") else n := by
  unfold reso
  rw [bytes_channel]

theorem bytesAt_nil (n : Nat) (cls : String) (d : Members) (ks : List (List (Obj Members))) :
    bytesAt n (.mk cls d ks) [] = reso n cls d := by
  rw [bytesAt, reso_eq]

theorem bytesAt_cons (n : Nat) (cls : String) (d : Members) (ks : List (List (Obj Members))) (i j : Nat) (p : List (Nat × Nat)) :
    bytesAt n (.mk cls d ks) ((i, j) :: p) = match (ks[i]?).bind (fun k => k[j]?) with
      | some o => bytesAt (reso n cls d) o p
      | none => reso n cls d := by
  rw [bytesAt, ← reso_eq]
  cases (ks[i]?).bind (fun k => k[j]?) <;> rfl

theorem data_walk (f : Nat → Members → Members) : ∀ (p : List (Nat × Nat)) (n : Nat) (o : Obj Members),
    dataAt (walk f n o) p = (dataAt o p).map (f (bytesAt n o p)) := by
  intro p
  induction p with
  | nil =>
    intro n o
    cases o with
    | mk cls d ks => simp [dataAt, Obj.at, walk, bytesAt_nil]
  | cons ij p ih =>
    intro n o
    obtain ⟨i, j⟩ := ij
    cases o with
    | mk cls d ks =>
      rw [bytesAt_cons, walk]
      unfold dataAt
      simp only [Obj.at, kid_walk]
      cases hk : (ks[i]?).bind (fun k => k[j]?) with
      | none => rfl
      | some x => exact ih (reso n cls d) x

theorem class_walk (f : Nat → Members → Members) : ∀ (p : List (Nat × Nat)) (n : Nat) (o : Obj Members),
    classAt (walk f n o) p = classAt o p := by
  intro p
  induction p with
  | nil =>
    intro n o
    simp [classAt, Obj.at, walk_cls]
  | cons ij p ih =>
    intro n o
    obtain ⟨i, j⟩ := ij
    cases o with
    | mk cls d ks =>
      rw [walk]
      unfold classAt
      simp only [Obj.at, kid_walk]
      cases hk : (ks[i]?).bind (fun k => k[j]?) with
      | none => rfl
      | some x => exact ih (reso n cls d) x

theorem bytes_walk (f : Nat → Members → Members)
    (hf : ∀ n d, channelBytes (f n d "fCoarse+fFine+fUltra+fUber") = channelBytes (d "fCoarse+fFine+fUltra+fUber")) :
    ∀ (p : List (Nat × Nat)) (n m : Nat) (o : Obj Members), bytesAt n (walk f m o) p = bytesAt n o p := by
  intro p
  induction p with
  | nil =>
    intro n m o
    cases o with
    | mk cls d ks => rw [walk, bytesAt_nil, bytesAt_nil, reso_eq n cls (f _ d), hf, reso_eq n cls d]
  | cons ij p ih =>
    intro n m o
    obtain ⟨i, j⟩ := ij
    cases o with
    | mk cls d ks =>
      rw [walk, bytesAt_cons, bytesAt_cons, kid_walk]
      have : reso n cls (f (reso m cls d) d) = reso n cls d := by rw [reso_eq n cls (f _ d), hf, reso_eq n cls d]
      rw [this]
      cases hk : (ks[i]?).bind (fun k => k[j]?) with
      | none => rfl
      | some x => exact ih (reso n cls d) (reso m cls d) x

theorem bytes_change (g : String → Members → Members) (drop : String) : ∀ (p : List (Nat × Nat)) (n : Nat) (o : Obj Members),
    (∀ q, classAt o q ≠ some drop) →
    (∀ q d, classAt o q = some "GdtfDmxChannel" → dataAt o q = some d →
      channelBytes (g "GdtfDmxChannel" d "fCoarse+fFine+fUltra+fUber") = channelBytes (d "fCoarse+fFine+fUltra+fUber")) →
    bytesAt n (change g drop o) p = bytesAt n o p := by
  intro p
  induction p with
  | nil =>
    intro n o _ hg
    cases o with
    | mk cls d ks =>
      rw [change, bytesAt_nil, bytesAt_nil, reso_eq, reso_eq]
      by_cases hc : cls = "GdtfDmxChannel"
      · rw [if_pos hc, if_pos hc, hc]
        exact hg [] d (by rw [hc]; rfl) rfl
      · rw [if_neg hc, if_neg hc]
  | cons ij p ih =>
    intro n o h hg
    obtain ⟨i, j⟩ := ij
    cases o with
    | mk cls d ks =>
      rw [change, bytesAt_cons, bytesAt_cons, changeAll_eq]
      have hr : reso n cls (g cls d) = reso n cls d := by
        rw [reso_eq, reso_eq]
        by_cases hc : cls = "GdtfDmxChannel"
        · rw [if_pos hc, if_pos hc, hc]
          exact hg [] d (by rw [hc]; rfl) rfl
        · rw [if_neg hc, if_neg hc]
      rw [hr]
      simp only [List.getElem?_map]
      cases hk : ks[i]? with
      | none => rfl
      | some k =>
        have hkm : k ∈ ks := List.mem_of_getElem? hk
        have hcl : ∀ o ∈ k, (∀ q, classAt o q ≠ some drop) ∧
            (∀ q d, classAt o q = some "GdtfDmxChannel" → dataAt o q = some d →
              channelBytes (g "GdtfDmxChannel" d "fCoarse+fFine+fUltra+fUber") = channelBytes (d "fCoarse+fFine+fUltra+fUber")) := by
          intro o ho
          obtain ⟨i', j', hat⟩ := at_child (cls := cls) (d := d) hkm ho
          refine ⟨fun q => ?_, fun q d' h1 h2 => ?_⟩
          · have := h ((i', j') :: q)
            unfold classAt at this ⊢
            rwa [hat q] at this
          · apply hg ((i', j') :: q) d'
            · unfold classAt at h1 ⊢; rw [hat q]; exact h1
            · unfold dataAt at h2 ⊢; rw [hat q]; exact h2
        have hid := changeList_id g drop k (fun o ho he => (hcl o ho).1 [] (by simp [classAt, Obj.at, he]))
        simp only [Option.map_some, Option.bind_some, hid, List.getElem?_map]
        cases ho : k[j]? with
        | none => rfl
        | some o =>
          simp only [Option.map_some]
          exact ih (reso n cls d) o (hcl o (List.mem_of_getElem? ho)).1 (hcl o (List.mem_of_getElem? ho)).2

theorem channelBytes_reso (v : Val) : IsReso (channelBytes v) := by
  rw [← bytes_channel]
  unfold bytes IsReso
  split
  · split
    · exact ⟨by omega, by omega⟩
    split
    · exact ⟨by omega, by omega⟩
    split
    · exact ⟨by omega, by omega⟩
    split <;> exact ⟨by omega, by omega⟩
  · exact ⟨by omega, by omega⟩

theorem bytesAt_reso : ∀ (p : List (Nat × Nat)) (n : Nat) (o : Obj Members), IsReso n → IsReso (bytesAt n o p) := by
  intro p
  have base : ∀ (n : Nat) (cls : String) (d : Members), IsReso n → IsReso (reso n cls d) := by
    intro n cls d h
    rw [reso_eq]
    split
    · exact channelBytes_reso _
    · exact h
  induction p with
  | nil =>
    intro n o h
    cases o with
    | mk cls d ks => rw [bytesAt_nil]; exact base n cls d h
  | cons ij p ih =>
    intro n o h
    obtain ⟨i, j⟩ := ij
    cases o with
    | mk cls d ks =>
      rw [bytesAt_cons]
      cases hk : (ks[i]?).bind (fun k => k[j]?) with
      | none => exact base n cls d h
      | some x => exact ih _ x (base n cls d h)

theorem tree_walk (f : Nat → Members → Members) (o : Obj Members) (h : Tree classes o) : ∀ n, Tree classes (walk f n o) := by
  induction h with
  | mk c d ks hc hn hf hk ih =>
    intro n
    rw [walk]
    refine Tree.mk c _ _ hc (by rw [walkAll_map, List.length_map, hn]) ?_ ?_
    · intro p hp
      rw [walkAll_map] at hp
      have hz : p ∈ (c.slots.zip ks).map (fun q => (q.1, q.2.map (walk f (reso n c.name d)))) := by
        rwa [List.zip_map_right] at hp
      obtain ⟨q, hq, rfl⟩ := List.mem_map.1 hz
      have := hf q hq
      refine ⟨?_, ?_⟩
      · intro o ho
        obtain ⟨x, hx, rfl⟩ := List.mem_map.1 ho
        rw [walk_cls]
        exact this.1 x hx
      · have h2 := this.2
        cases hh : q.1.how with
        | many => trivial
        | first => rw [hh] at h2; simpa using h2
        | embedded => rw [hh] at h2; simpa using h2
    · intro k hk' o ho
      rw [walkAll_map] at hk'
      obtain ⟨k0, hk0, rfl⟩ := List.mem_map.1 hk'
      obtain ⟨x, hx, rfl⟩ := List.mem_map.1 ho
      exact ih k0 hk0 x hx _

/-! ### Reading the members of one object -/

theorem readNow_other (F : Fl) (node : Attrs) (f : String) : ∀ (l : List Item) (o : Members), (∀ i ∈ l, i.field ≠ f) →
    readNow F l node o f = o f := by
  intro l
  induction l with
  | nil => intro o _; rfl
  | cons i l ih =>
    intro o h
    unfold readNow at ih ⊢
    rw [List.foldl_cons, ih _ (fun i hi => h i (List.mem_cons_of_mem _ hi))]
    split
    · exact if_neg (fun e => h i (List.mem_cons_self ..) e.symm)
    · rfl

theorem readNow_append (F : Fl) (node : Attrs) (l l' : List Item) (o : Members) :
    readNow F (l ++ l') node o = readNow F l' node (readNow F l node o) := by
  unfold readNow
  rw [List.foldl_append]

theorem readNow_field (F : Fl) (node : Attrs) (pre post : List Item) (j : Item) (o : Members)
    (hp : (pre ++ j :: post).Pairwise (fun i j => i.field ≠ j.field)) (hg : j.guard.holds (cond (readNow F pre node o)) = true) :
    readNow F (pre ++ j :: post) node o j.field = (conv F).dec j.codec (getAttr node j.attr) (o j.field) := by
  rw [List.pairwise_append] at hp
  obtain ⟨-, h2, h3⟩ := hp
  rw [List.pairwise_cons] at h2
  have hpost := readNow_other F node j.field post
  rw [readNow_append, show j :: post = [j] ++ post from rfl, readNow_append, hpost _ (fun i hi => (h2.1 i hi).symm)]
  have hone : readNow F [j] node (readNow F pre node o) =
      fun f => if f = j.field then (conv F).dec j.codec (getAttr node j.attr) (readNow F pre node o f) else readNow F pre node o f := by
    unfold readNow at hg ⊢
    rw [List.foldl_cons, if_pos hg, List.foldl_nil]
  rw [hone]
  simp only [if_true]
  rw [readNow_other F node j.field pre o (fun i hi => h3 i hi j (List.mem_cons_self ..))]

/-- Only colour spaces read under a condition. -/
theorem table_guard : ∀ k ∈ kinds, ∀ j ∈ k.reads, j.guard = .always ∨
    (k = Node.kColorSpace ∧ j.guard = .on "fColorSpace == EGdtfColorSpace::Custom") := by
  decide +kernel

/-- The statement that reads the mode of a colour space. -/
def modeItem : Item := ⟨"Mode", "fColorSpace", .val "ConvertEGdtfColorSpace", .always⟩

theorem mode_writes : Writes "GdtfColorSpace" modeItem :=
  ⟨Node.kColorSpace, by decide +kernel, rfl, by decide +kernel, by decide, by decide, by
    intro u hu
    have : ∀ p ∈ Node.Spec.deferred, p.1 ≠ "GdtfColorSpace" := by decide +kernel
    exact this _ hu rfl⟩

theorem mode_cv : cvOf modeItem.codec = some .space := by decide +kernel

theorem unique_write (k : Kind) (hk : k ∈ kinds) (d : Members)
    (hm : k.name = "GdtfDmxChannelFunction" → ¬ (set? (d "fModeMaster_Channel") = true ∧ set? (d "fModeMaster_Function") = true))
    (i j : Item) (hi : i ∈ k.writes) (hj : j ∈ k.writes) (hgi : i.guard.holds (cond d) = true) (hgj : j.guard.holds (cond d) = true)
    (h : j.attr = i.attr) : j = i := by
  refine Node.C53_one_statement k hk (cond d) ?_ i j hi hj hgi hgj h
  intro hn
  have := hm hn
  have e1 : cond d "fModeMaster_Channel" = set? (d "fModeMaster_Channel") := by
    unfold cond
    rw [if_neg (by decide), if_neg (by decide), if_neg (by decide), if_neg (by decide), if_neg (by decide), if_neg (by decide)]
  have e2 : cond d "fModeMaster_Function" = set? (d "fModeMaster_Function") := by
    unfold cond
    rw [if_neg (by decide), if_neg (by decide), if_neg (by decide), if_neg (by decide), if_neg (by decide), if_neg (by decide)]
  rwa [e1, e2]

/-- A statement that is executed: its attribute is read into its member, or as a text into the member from which it is resolved. -/
theorem member_read (F : Fl) (init : Members) (k : Kind) (hk : k ∈ kinds) (d : Members)
    (hm : k.name = "GdtfDmxChannelFunction" → ¬ (set? (d "fModeMaster_Channel") = true ∧ set? (d "fModeMaster_Function") = true))
    (hs : k.name = "GdtfColorSpace" → typeOf (init "fColorSpace") = .of .space)
    (i : Item) (hi : i ∈ k.writes) (hg : i.guard.holds (cond d) = true) (hb : i.codec ≠ .blank) :
    ((∃ j ∈ k.reads, j.field = i.field) ∧ readNow F k.reads (k.write (conv F) (cond d) d) init i.field =
        (conv F).dec i.codec (some ((conv F).enc i.codec (d i.field))) (init i.field)) ∨
      ∃ u, (k.name, u, i.field) ∈ Node.Spec.deferred ∧
        readNow F k.reads (k.write (conv F) (cond d) d) init u = .text ((conv F).enc i.codec (d i.field)) := by
  have ht := Node.table_read k hk
  unfold Node.readOk at ht
  rw [Bool.and_eq_true, decide_eq_true_iff] at ht
  obtain ⟨h1, h2⟩ := ht
  have h3 := List.all_eq_true.1 h2 i hi
  rw [List.any_eq_true] at h3
  obtain ⟨j, hj, h3⟩ := h3
  simp only [Bool.and_eq_true, Bool.or_eq_true, beq_iff_eq] at h3
  obtain ⟨⟨h4, h5⟩, h6⟩ := h3
  have hattr : ∀ i ∈ k.writes, i.guard.holds (cond d) = true → i.codec ≠ .blank →
      getAttr (k.write (conv F) (cond d) d) i.attr = some ((conv F).enc i.codec (d i.field)) := by
    intro i hi hg hb
    rw [getAttr_write k (conv F) (cond d) d i hi hg (fun j hj hgj h => unique_write k hk d hm i j hi hj hg hgj h)]
    unfold Node.Conv.text
    rw [if_neg hb]
  obtain ⟨pre, post, hpp⟩ := List.append_of_mem hj
  have hgj : j.guard.holds (cond (readNow F pre (k.write (conv F) (cond d) d) init)) = true := by
    rcases table_guard k hk j hj with ha | ⟨hkc, hc⟩
    · rw [ha]; rfl
    · have hc5 : i.guard = .on "fColorSpace == EGdtfColorSpace::Custom" := by
        rcases h5 with h5 | h5
        · rw [h5] at hc; cases hc
        · rw [← h5, hc]
      rw [hc]
      rw [hc5] at hg
      have hcustom : d "fColorSpace" = .space .cCustom := by
        unfold Node.Guard.holds cond at hg
        simpa using hg
      subst hkc
      -- the mode is read before
      have hsplit : ∃ pre', pre = Node.kColorSpace.reads.take 2 ++ pre' ∧ ∀ i ∈ pre', i.field ≠ "fColorSpace" := by
        have hr : Node.kColorSpace.reads = Node.kColorSpace.reads.take 2 ++ Node.kColorSpace.reads.drop 2 :=
          (List.take_append_drop 2 _).symm
        have hl : 2 ≤ pre.length := by
          by_contra hlt
          have : Node.kColorSpace.reads[pre.length]? = some j := by rw [hpp]; simp
          have hcases : pre.length = 0 ∨ pre.length = 1 := by omega
          rcases hcases with h0 | h0 <;> rw [h0] at this <;>
            · have h' := Option.some.inj this
              rw [← h'] at hc
              revert hc
              decide
        refine ⟨pre.drop 2, ?_, ?_⟩
        · have : Node.kColorSpace.reads.take 2 = pre.take 2 := by
            rw [hpp, List.take_append_of_le_length hl]
          rw [this, List.take_append_drop]
        · intro i hi
          have hi2 : i ∈ Node.kColorSpace.reads.drop 2 := by
            rw [hpp, List.drop_append_of_le_length hl]
            exact List.mem_append_left _ hi
          have : ∀ i ∈ Node.kColorSpace.reads.drop 2, i.field ≠ "fColorSpace" := by decide +kernel
          exact this i hi2
      obtain ⟨pre', hpre, hne⟩ := hsplit
      have hmode : readNow F pre (Node.kColorSpace.write (conv F) (cond d) d) init "fColorSpace" = .space .cCustom := by
        rw [hpre, readNow_append, readNow_other F _ _ pre' _ hne,
          show Node.kColorSpace.reads.take 2 = [⟨"Name", "fUniqueName", .text, .always⟩] ++ modeItem :: [] from rfl,
          show ("fColorSpace" : String) = modeItem.field from rfl]
        rw [readNow_field F _ [⟨"Name", "fUniqueName", .text, .always⟩] [] modeItem init (by decide) rfl,
          hattr modeItem (by decide +kernel) rfl (by decide)]
        obtain ⟨s, hs⟩ := is_space (hs rfl)
        simp only [conv, mode_cv]
        rw [show modeItem.field = "fColorSpace" from rfl, hs, hcustom]
        have := enum_space F 1 .cCustom s
        unfold again dmxText at this
        simp only at this
        generalize dec F .space (some (enc .space (.space .cCustom))) (.space s) = z at this ⊢
        cases z <;> simp only [dmxValue] at this <;> first | exact this | skip
        · rename_i t
          cases hz : readDmx F 1 (toChars t) 0 <;> rw [hz] at this <;> simp [result] at this
        · rename_i t
          cases hz : readDmxNone F 1 (toChars t) 0 <;> rw [hz] at this <;> simp [result] at this
      show cond (readNow F pre (Node.kColorSpace.write (conv F) (cond d) d) init) "fColorSpace == EGdtfColorSpace::Custom" = true
      unfold cond
      rw [if_pos rfl]
      unfold cond at hmode
      rw [hmode]
      exact beq_self_eq_true _
  have hv : readNow F k.reads (k.write (conv F) (cond d) d) init j.field =
      (conv F).dec j.codec (some ((conv F).enc i.codec (d i.field))) (init j.field) := by
    have := readNow_field F (k.write (conv F) (cond d) d) pre post j init (by rw [← hpp]; exact h1) hgj
    rw [← hpp, h4, hattr i hi hg hb] at this
    exact this
  rcases h6 with (⟨h7, h8⟩ | ⟨h7, h8⟩) | h6
  · left
    refine ⟨⟨j, hj, h7⟩, ?_⟩
    rw [h7, h8] at hv
    exact hv
  · right
    refine ⟨j.field, List.contains_iff_mem.1 h8, ?_⟩
    rw [h7] at hv
    exact hv
  · exact absurd h6 hb

/-! ### The members that `OnReadFromNode` sets by itself -/

theorem after_other (cls : String) (node : Attrs) (o : Members) (f : String) (h1 : f ≠ "fHasColor") (h2 : f ≠ "fSetPhysical")
    (h3 : f ≠ "fHasLinkedGuid") (h4 : cls = "GdtfFixture" → f ≠ "fName") : after cls node o f = o f := by
  unfold after put
  split
  · split
    · exact if_neg h1
    · rfl
  split
  · exact if_neg h2
  split
  · rename_i h
    simp only [if_neg h3, if_neg (h4 h)]
  · rfl

theorem table_own : ∀ k ∈ kinds, ∀ i ∈ k.writes, i.field ≠ "fHasColor" ∧ i.field ≠ "fSetPhysical" ∧ i.field ≠ "fHasLinkedGuid" := by
  decide +kernel

theorem table_find : ∀ k ∈ kinds, kinds.find? (fun k' => k'.name == k.name) = some k := by
  decide +kernel

theorem slashes_id (t : Txt) (h : (47 : BitVec 16) ∉ t) : slashes t = t := by
  unfold slashes
  rw [List.map_congr_left (g := id)]
  · exact List.map_id t
  · intro u hu
    exact if_neg (fun e => h (by rw [← e]; exact hu))

theorem cond_dmxText (n : Nat) (d : Members) (c : String) : cond (fun f => dmxText n (d f)) c = cond d c := by
  have h1 : ∀ v, set? (dmxText n v) = set? v := by intro v; cases v <;> rfl
  have h2 : ∀ v, nonzero (dmxText n v) = nonzero v := by intro v; cases v <;> rfl
  have h3 : ∀ v, (dmxText n v == .space .cCustom) = (v == .space .cCustom) := by
    intro v
    cases v <;> first | rfl | (rw [Bool.eq_iff_iff]; simp [dmxText])
  unfold cond
  simp only [h1, h2, h3]

theorem dmxText_offset (n : Nat) (v : Val) : channelBytes (dmxText n v) = channelBytes v := by cases v <;> rfl

/-- What `read` finds in an object that was written, with numbers as texts. -/
def readBack (F : Fl) (init : String → Members) (k : Kind) (n : Nat) (d : Members) : Members :=
  after k.name (k.write (conv F) (cond d) (fun f => dmxText n (d f)))
    (unread k.name (k.write (conv F) (cond d) (fun f => dmxText n (d f))) (init k.name)
      (readNow F k.reads (k.write (conv F) (cond d) (fun f => dmxText n (d f))) (init k.name)))

/-- A member that is read. -/
theorem unread_there (cls : String) (node : Attrs) (init o : Members) (f : String)
    (h : ∀ s ∈ skips, s.1 = cls → s.2.2 = f → getAttr node s.2.1 ≠ none) : unread cls node init o f = o f := by
  unfold unread
  rw [if_neg]
  intro hs
  obtain ⟨s, hs, he⟩ := List.any_eq_true.1 hs
  rw [Bool.and_eq_true, Bool.and_eq_true, beq_iff_eq, beq_iff_eq] at he
  exact h s hs he.1.1 he.1.2 (Option.isNone_iff_eq_none.1 he.2)

/-- A member whose converter is always called. -/
theorem unread_other (cls : String) (node : Attrs) (init o : Members) (f : String) (h : ∀ s ∈ skips, s.1 = cls → s.2.2 ≠ f) :
    unread cls node init o f = o f :=
  unread_there cls node init o f (fun s hs h1 h2 => absurd h2 (h s hs h1))

theorem table_skips : ∀ k ∈ kinds, ∀ i ∈ k.writes, ∀ s ∈ skips, s.1 = k.name → s.2.2 = i.field → s.2.1 = i.attr := by
  decide +kernel

theorem table_skips_texts : ∀ p ∈ Node.Spec.deferred, ∀ s ∈ skips, s.2.2 ≠ p.2.1 := by
  decide +kernel

/-- A member that was written is read. -/
theorem unread_written (F : Fl) (k : Kind) (hk : k ∈ kinds) (n : Nat) (d init o : Members)
    (hm : k.name = "GdtfDmxChannelFunction" → ¬ (set? (d "fModeMaster_Channel") = true ∧ set? (d "fModeMaster_Function") = true))
    (i : Item) (hi : i ∈ k.writes) (hg : i.guard.holds (cond d) = true) :
    unread k.name (k.write (conv F) (cond d) (fun f => dmxText n (d f))) init o i.field = o i.field := by
  apply unread_there
  intro s hs h1 h2
  rw [table_skips k hk i hi s hs h1 h2,
    getAttr_write k (conv F) (cond d) _ i hi hg (fun j hj hgj h => unique_write k hk d hm i j hi hj hg hgj h)]
  exact Option.some_ne_none _

/-- One member. -/
theorem member_back (F : Fl) (init : String → Members) (hi : Suitable init) (k : Kind) (hk : k ∈ kinds) (n : Nat) (hn : IsReso n)
    (d : Members) (ht : ∀ f, typeOf (d f) = typeOf (init k.name f)) (hkept : ∀ f, Kept n (d f))
    (hm : k.name = "GdtfDmxChannelFunction" → ¬ (set? (d "fModeMaster_Channel") = true ∧ set? (d "fModeMaster_Function") = true))
    (hslash : k.name = "GdtfFixture" → NoSlash d) (i : Item) (hw : Writes k.name i) (hwi : i ∈ k.writes) (hg : i.guard.holds (cond d) = true) :
    Close (d i.field) (dmxValue F n (readBack F init k n d i.field)) := by
  obtain ⟨k', hk', hname, -, href, hb, hd⟩ := hw
  have hset : ∀ v, set? (dmxText n v) = set? v := by intro v; cases v <;> rfl
  have hsp : k.name = "GdtfColorSpace" → typeOf (init k.name "fColorSpace") = .of .space := by
    intro e
    have := hi k.name modeItem .space (by rw [e]; exact mode_writes) mode_cv
    unfold suits at this
    generalize typeOf (init k.name modeItem.field) = t at this
    have e2 : init k.name modeItem.field = init k.name "fColorSpace" := rfl
    rw [← e2]
    have := hi k.name modeItem .space (by rw [e]; exact mode_writes) mode_cv
    unfold suits at this
    split at this
    · rename_i c hc; rw [hc, beq_iff_eq.1 this]
    · cases this
    · cases this
    · cases this
    · cases this
  have hcond : cond (fun f => dmxText n (d f)) = cond d := funext (cond_dmxText n d)
  have hread := member_read F (init k.name) k hk (fun f => dmxText n (d f)) (by simpa only [hset] using hm) hsp i hwi
    (by rw [hcond]; exact hg) hb
  rw [hcond] at hread
  rcases hread with ⟨-, hread⟩ | ⟨u, hu, -⟩
  · obtain ⟨o1, o2, o3⟩ := table_own k hk i hwi
    have hcv : ∃ cv, cvOf i.codec = some cv ∧ cv ≠ .link := by
      have : ∀ k ∈ kinds, ∀ i ∈ k.writes, i.codec ≠ .blank → i.codec ≠ .ref → (match cvOf i.codec with | some cv => cv != .link | none => false) = true := by
        decide +kernel
      have := this k hk i hwi hb href
      cases hc : cvOf i.codec with
      | none => rw [hc] at this; cases this
      | some cv => rw [hc] at this; exact ⟨cv, rfl, by simpa using this⟩
    obtain ⟨cv, hcv, hl⟩ := hcv
    have hval := value_back F n hn cv (d i.field) (init k.name i.field) (hi k.name i cv ⟨k', hk', hname, by
      have h1 := table_find k hk
      have h2 := table_find k' hk'
      rw [hname] at h2
      rw [h1] at h2
      rw [← Option.some.inj h2]; exact hwi, href, hb, hd⟩ hcv) (ht _) hl (hkept _)
    have hconv : (conv F).dec i.codec (some ((conv F).enc i.codec (dmxText n (d i.field)))) (init k.name i.field) =
        dec F cv (some (enc cv (dmxText n (d i.field)))) (init k.name i.field) := by
      simp only [conv, hcv]
    rw [hconv] at hread
    unfold again at hval
    unfold readBack
    by_cases hfix : k.name = "GdtfFixture" ∧ i.field = "fName"
    · obtain ⟨hf1, hf2⟩ := hfix
      have hafter : ∀ (node : Attrs) (o : Members), after "GdtfFixture" node o "fName" = renamed (o "fName") := by
        intro node o
        unfold after put
        rw [if_neg (by decide), if_neg (by decide), if_pos rfl]
        simp
      have htext : ∃ t, d "fName" = .text t := by
        have hcodec : ∀ i ∈ Node.kFixture.writes, i.field = "fName" → i.codec = .text := by decide +kernel
        have hkf : k = Node.kFixture := by
          have h1 := table_find k hk
          rw [hf1] at h1
          have h2 := table_find Node.kFixture (by decide +kernel)
          rw [show Node.kFixture.name = "GdtfFixture" from rfl, h1] at h2
          exact Option.some.inj h2
        have h3 : i.codec = .text := hcodec i (by rw [← hkf]; exact hwi) hf2
        rw [h3] at hcv
        cases hcv
        have h4 := hi k.name i .text ⟨k', hk', hname, by
          have h1 := table_find k hk
          have h2 := table_find k' hk'
          rw [hname] at h2
          rw [h1] at h2
          rw [← Option.some.inj h2]; exact hwi, href, hb, hd⟩ (by rw [h3]; rfl)
        rw [hf2] at h4
        have h5 := ht "fName"
        unfold suits at h4
        split at h4
        · rename_i c hc
          rw [hc, beq_iff_eq.1 h4] at h5
          exact is_text h5
        · cases h4
        · cases h4
        · cases h4
        · cases h4
      obtain ⟨t, htx⟩ := htext
      rw [hf1, hf2, hafter, unread_other _ _ _ _ _ (by decide)]
      rw [hf2, hf1] at hread
      rw [hread]
      rw [hf2, hf1] at hval
      rw [htx] at hval ⊢
      have hno := hslash hf1 t htx
      have hcl : dec F cv (some (enc cv (dmxText n (.text t)))) (init "GdtfFixture" "fName") = .text t := by
        have hcodec : ∀ i ∈ Node.kFixture.writes, i.field = "fName" → cvOf i.codec = some .text := by decide +kernel
        have hkf : k = Node.kFixture := by
          have h1 := table_find k hk
          rw [hf1] at h1
          have h2 := table_find Node.kFixture (by decide +kernel)
          rw [show Node.kFixture.name = "GdtfFixture" from rfl, h1] at h2
          exact Option.some.inj h2
        have := hcodec i (by rw [← hkf]; exact hwi) hf2
        rw [hcv] at this
        cases this
        rfl
      rw [hcl]
      simp only [renamed, slashes_id t hno, dmxValue]
      exact rfl
    · rw [after_other _ _ _ _ o1 o2 o3 (fun h1 h2 => hfix ⟨h1, h2⟩), unread_written F k hk n d _ _ hm i hwi hg, hread]
      exact hval
  · exact absurd hu (hd u)

/-! ### The whole description -/

/-- What `read` finds in an object of a kind. -/
theorem schema_back (F : Fl) (init : String → Members) (fresh : String → Obj Members) (k : Kind) (hk : k ∈ kinds) (n : Nat) (d : Members) :
    (valueSchema F init fresh).dec k.name ((valueSchema F init fresh).enc k.name (fun f => dmxText n (d f))) = readBack F init k n d := by
  have hcond : cond (fun f => dmxText n (d f)) = cond d := funext (cond_dmxText n d)
  simp only [valueSchema, table_find k hk, readBack, hcond]

theorem kind_of_writes {cls : String} {i : Item} (h : Writes cls i) : ∃ k ∈ kinds, k.name = cls ∧ i ∈ k.writes := by
  obtain ⟨k, hk, hn, hi, -⟩ := h
  exact ⟨k, hk, hn, hi⟩

/-- The statement that writes the offset of a channel. -/
def offsetItem : Item := ⟨"Offset", "fCoarse+fFine+fUltra+fUber", .val "ConvertDmxOffset", .always⟩

theorem offset_writes : Writes "GdtfDmxChannel" offsetItem :=
  ⟨Node.kDmxChannel, by decide +kernel, rfl, by decide +kernel, by decide, by decide, by
    intro u hu
    have : ∀ p ∈ Node.Spec.deferred, p.1 = "GdtfDmxChannel" → p.2.2 ≠ "fCoarse+fFine+fUltra+fUber" := by decide +kernel
    exact this _ hu rfl rfl⟩

theorem offset_cv : cvOf offsetItem.codec = some .offset := by decide +kernel

theorem suits_of {cv : Cv} {v : Val} (h : suits cv v = true) (h1 : cv ≠ .int) (h2 : cv ≠ .dmx) : typeOf v = .of cv := by
  unfold suits at h
  split at h
  · rename_i c hc; rw [hc, beq_iff_eq.1 h]
  · exact absurd (beq_iff_eq.1 h) h1
  · exact absurd (beq_iff_eq.1 h) h2
  · exact absurd (beq_iff_eq.1 h) h2
  · cases h

theorem suits_offset {v : Val} (h : suits .offset v = true) : typeOf v = .of .offset := by
  unfold suits at h
  split at h
  · rename_i c hc; rw [hc, beq_iff_eq.1 h]
  · cases h
  · cases h
  · cases h
  · cases h

theorem dmxValue_offset (F : Fl) (n : Nat) (v : Val) (o : Offset) (h : dmxValue F n v = .offset o) : v = .offset o := by
  cases v <;> simp only [dmxValue] at h <;> first | exact h | cases h | skip
  · rename_i t
    cases hz : readDmx F n (toChars t) 0 <;> rw [hz] at h <;> simp [result] at h
  · rename_i t
    cases hz : readDmxNone F n (toChars t) 0 <;> rw [hz] at h <;> simp [result] at h

/-- The hypotheses on a description. -/
structure Ordinary (init : String → Members) (o : Obj Members) : Prop where
  tree : Tree classes o
  noPreset : ∀ q, classAt o q ≠ some "GdtfUserPreset"
  typed : Typed init o
  kept : AllKept o
  master : OneMaster o

theorem dataAt_walk_inv {f : Nat → Members → Members} {n : Nat} {o : Obj Members} {p : List (Nat × Nat)} {d1 : Members}
    (h : dataAt (walk f n o) p = some d1) : ∃ d, dataAt o p = some d ∧ d1 = f (bytesAt n o p) d := by
  rw [data_walk] at h
  cases hd : dataAt o p with
  | none => rw [hd] at h; cases h
  | some d => rw [hd] at h; exact ⟨d, rfl, (Option.some.inj h).symm⟩

/-- The resolution at a place is the same when the description is read again. -/
theorem bytes_back (F : Fl) (init : String → Members) (fresh : String → Obj Members) (hi : Suitable init) (o : Obj Members)
    (h : Ordinary init o) (p : List (Nat × Nat)) :
    bytesAt 2 (read (valueSchema F init fresh) o.cls (writeValues F init fresh o)) p = bytesAt 2 o p := by
  have hw : ∀ n d, channelBytes ((fun n (d : Members) f => dmxText n (d f)) n d "fCoarse+fFine+fUltra+fUber") =
      channelBytes (d "fCoarse+fFine+fUltra+fUber") := fun n d => dmxText_offset n _
  have hb := bytes_walk (fun n d f => dmxText n (d f)) hw p 2 2 o
  have hp := C63_partial (valueSchema F init fresh) rfl _ (tree_walk (fun n d f => dmxText n (d f)) o h.tree 2)
  rw [walk_cls] at hp
  unfold writeValues
  rw [hp, bytes_change, hb]
  · intro q; rw [class_walk]; exact h.noPreset q
  · intro q d1 hc hd
    rw [class_walk] at hc
    obtain ⟨d, hd0, rfl⟩ := dataAt_walk_inv hd
    clear hd
    have hd := hd0
    have hback := schema_back F init fresh Node.kDmxChannel (by decide +kernel) (bytesAt 2 o q) d
    rw [show Node.kDmxChannel.name = "GdtfDmxChannel" from rfl] at hback
    rw [hback]
    have hm := member_back F init hi Node.kDmxChannel (by decide +kernel) (bytesAt 2 o q) (bytesAt_reso q 2 o (by unfold IsReso; omega)) d
      (h.typed q _ d hc hd) (h.kept q _ d hc hd) (fun e => absurd e (by decide)) (fun e => absurd e (by decide)) offsetItem
      offset_writes (by decide +kernel) rfl
    have hto : typeOf (d "fCoarse+fFine+fUltra+fUber") = .of .offset := by
      rw [h.typed q _ d hc hd]
      exact suits_offset (hi _ offsetItem .offset offset_writes offset_cv)
    obtain ⟨x, hx⟩ := is_offset hto
    rw [show offsetItem.field = "fCoarse+fFine+fUltra+fUber" from rfl] at hm
    rw [hx] at hm
    have := dmxValue_offset F (bytesAt 2 o q) _ x (Eq.symm hm)
    rw [this]
    simp only
    rw [hx]
    rfl

/-- What is at a place after reading. -/
theorem place_back (F : Fl) (init : String → Members) (fresh : String → Obj Members) (hi : Suitable init) (o : Obj Members)
    (h : Ordinary init o) (p : List (Nat × Nat)) (k : Kind) (hk : k ∈ kinds) (d : Members) (hc : classAt o p = some k.name)
    (hd : dataAt o p = some d) :
    dataAt (readValues F init fresh o.cls (writeValues F init fresh o)) p =
      some (fun f => dmxValue F (bytesAt 2 o p) (readBack F init k (bytesAt 2 o p) d f)) := by
  unfold readValues
  rw [data_walk, bytes_back F init fresh hi o h p]
  have hv := C63_values (valueSchema F init fresh) rfl _ (tree_walk (fun n d f => dmxText n (d f)) o h.tree 2)
    (by intro q; rw [class_walk]; exact h.noPreset q) p k.name _ (by rw [class_walk]; exact hc) (by rw [data_walk, hd]; rfl)
  rw [walk_cls] at hv
  unfold writeValues
  rw [hv, schema_back F init fresh k hk]
  rfl

/-- **C80.** Write a description and read it again: wherever an object was, there is an object of the class, and every member that was
written has the value it had, up to the decimals that are not written.  (`OnPrintToFile` leaves some members out, depending on others:
`i.guard`.) -/
theorem C80_values_partial (F : Fl) (init : String → Members) (fresh : String → Obj Members) (hi : Suitable init) (o : Obj Members)
    (h : Ordinary init o) (p : List (Nat × Nat)) (cls : String) (d : Members) (hc : classAt o p = some cls) (hd : dataAt o p = some d)
    (hslash : cls = "GdtfFixture" → NoSlash d) (i : Item) (hw : Writes cls i) (hg : i.guard.holds (cond d) = true) :
    ∃ d', dataAt (readValues F init fresh o.cls (writeValues F init fresh o)) p = some d' ∧ Close (d i.field) (d' i.field) := by
  obtain ⟨k, hk, rfl, hwi⟩ := kind_of_writes hw
  refine ⟨_, place_back F init fresh hi o h p k hk d hc hd, ?_⟩
  exact member_back F init hi k hk (bytesAt 2 o p) (bytesAt_reso p 2 o (by unfold IsReso; omega)) d (h.typed p _ d hc hd) (h.kept p _ d hc hd)
    (fun e => h.master p d (by rw [← e]; exact hc) hd) hslash i hw hwi hg

/-! ### References -/

theorem table_deferred : ∀ k ∈ kinds, ∀ i ∈ k.writes, (Node.Spec.deferred.any (fun p => p.1 == k.name && p.2.2 == i.field)) = true →
    ∀ j ∈ k.reads, j.field ≠ i.field := by
  decide +kernel

theorem table_texts : ∀ p ∈ Node.Spec.deferred, p.2.1 ≠ "fHasColor" ∧ p.2.1 ≠ "fSetPhysical" ∧ p.2.1 ≠ "fHasLinkedGuid" ∧
    p.1 ≠ "GdtfFixture" := by
  decide +kernel

/-- **C80, references.** A member that points to another object, or a number that is converted only when all objects are there: the text
that stands for it in the file is the one that is looked up after reading. -/
theorem C80_links (F : Fl) (init : String → Members) (fresh : String → Obj Members) (hi : Suitable init) (o : Obj Members)
    (h : Ordinary init o) (p : List (Nat × Nat)) (d : Members) (k : Kind) (hk : k ∈ kinds) (hc : classAt o p = some k.name)
    (hd : dataAt o p = some d) (i : Item) (hwi : i ∈ k.writes) (hdef : ∃ u, (k.name, u, i.field) ∈ Node.Spec.deferred)
    (hg : i.guard.holds (cond d) = true) (t : Txt)
    (ht : (i.codec = .ref ∧ d i.field = .link (some t)) ∨ (i.codec = .val "ConvertDMXValue" ∧ d i.field = .raw t)) :
    ∃ d' u, dataAt (readValues F init fresh o.cls (writeValues F init fresh o)) p = some d' ∧
      (k.name, u, i.field) ∈ Node.Spec.deferred ∧ d' u = .text t := by
  have hb : i.codec ≠ .blank := by
    rcases ht with ⟨h, -⟩ | ⟨h, -⟩ <;> rw [h] <;> decide
  have hset : ∀ v, set? (dmxText (bytesAt 2 o p) v) = set? v := by intro v; cases v <;> rfl
  have hsp : k.name = "GdtfColorSpace" → typeOf (init k.name "fColorSpace") = .of .space := by
    intro e
    have hs := hi k.name modeItem .space (by rw [e]; exact mode_writes) mode_cv
    unfold suits at hs
    rw [show modeItem.field = "fColorSpace" from rfl] at hs
    split at hs
    · rename_i c hc; rw [hc, beq_iff_eq.1 hs]
    · cases hs
    · cases hs
    · cases hs
    · cases hs
  have hcond : cond (fun f => dmxText (bytesAt 2 o p) (d f)) = cond d := funext (cond_dmxText _ d)
  have hread := member_read F (init k.name) k hk (fun f => dmxText (bytesAt 2 o p) (d f))
    (by simpa only [hset] using fun e => h.master p d (by rw [← e]; exact hc) hd) hsp i hwi (by rw [hcond]; exact hg) hb
  rw [hcond] at hread
  rcases hread with ⟨⟨j, hj, he⟩, -⟩ | ⟨u, hu, hread⟩
  · obtain ⟨u, hu⟩ := hdef
    exact absurd he (table_deferred k hk i hwi (List.any_eq_true.2 ⟨_, hu, by simp⟩) j hj)
  · refine ⟨_, u, place_back F init fresh hi o h p k hk d hc hd, hu, ?_⟩
    obtain ⟨h1, h2, h3, h4⟩ := table_texts _ hu
    have henc : (conv F).enc i.codec (dmxText (bytesAt 2 o p) (d i.field)) = t := by
      rcases ht with ⟨e1, e2⟩ | ⟨e1, e2⟩
      · rw [e1, e2]; rfl
      · rw [e1, e2]
        have : cvOf (.val "ConvertDMXValue") = some .dmx := by decide +kernel
        simp only [conv, this]
        rfl
    rw [henc] at hread
    unfold readBack
    rw [after_other _ _ _ _ h1 h2 h3 (fun e => absurd e h4), unread_other _ _ _ _ _ (fun s hs _ => table_skips_texts _ hu s hs), hread]
    rfl

/-! ### Members that are left out -/

theorem getAttr_none (k : Kind) (C : Node.Conv Val) (w : String → Bool) (o : Members) (a : String)
    (h : ∀ j ∈ k.writes, j.attr = a → j.guard.holds w = false) : getAttr (k.write C w o) a = none := by
  have gen : ∀ (l : List Item) (n : List (String × Txt)), (∀ j ∈ l, j.attr ≠ a) →
      getAttr (l.foldl (fun n i => Node.setAttr n i.attr (C.text i o)) n) a = getAttr n a := by
    intro l
    induction l with
    | nil => intro n _; rfl
    | cons j l ih =>
      intro n h
      rw [List.foldl_cons, ih _ (fun j' hj => h j' (List.mem_cons_of_mem _ hj)), Node.getAttr_setAttr,
        if_neg (h j (List.mem_cons_self ..)).symm]
  unfold Kind.write
  rw [gen]
  · rfl
  · intro j hj he
    rw [List.mem_filter] at hj
    rw [h j hj.1 he] at hj
    cases hj.2

theorem attr_executed (F : Fl) (k : Kind) (hk : k ∈ kinds) (d : Members) (n : Nat) (hn : k.name ≠ "GdtfDmxChannelFunction") (i : Item)
    (hi : i ∈ k.writes) (hg : i.guard.holds (cond d) = true) (hb : i.codec ≠ .blank) :
    getAttr (k.write (conv F) (cond d) (fun f => dmxText n (d f))) i.attr = some ((conv F).enc i.codec (dmxText n (d i.field))) := by
  rw [getAttr_write k (conv F) (cond d) _ i hi hg (fun j hj hgj h => unique_write k hk d (fun e => absurd e hn) i j hi hj hg hgj h)]
  unfold Node.Conv.text
  rw [if_neg hb]

/-- **C80, flags of an attribute.** An attribute has a colour after reading if it had one before. -/
theorem C80_has_color (F : Fl) (init : String → Members) (fresh : String → Obj Members) (hi : Suitable init) (o : Obj Members)
    (h : Ordinary init o) (p : List (Nat × Nat)) (d : Members) (hc : classAt o p = some "GdtfAttribute") (hd : dataAt o p = some d)
    (b : Bool) (hb : d "fHasColor" = .flag b) (hinit : init "GdtfAttribute" "fHasColor" = .flag false) :
    ∃ d', dataAt (readValues F init fresh o.cls (writeValues F init fresh o)) p = some d' ∧ d' "fHasColor" = .flag b := by
  refine ⟨_, place_back F init fresh hi o h p Node.kAttribute (by decide +kernel) d hc hd, ?_⟩
  have hfl : cond d "fHasColor" = b := by
    unfold cond
    rw [if_neg (by decide), if_neg (by decide), if_neg (by decide), if_neg (by decide), if_neg (by decide), if_neg (by decide), hb]
    rfl
  unfold readBack after put
  rw [if_pos (show Node.kAttribute.name = "GdtfAttribute" from rfl)]
  cases b with
  | true =>
    have := attr_executed F Node.kAttribute (by decide +kernel) d (bytesAt 2 o p) (by decide)
      ⟨"Color", "fColor", (.val "ConvertColor"), .on "fHasColor"⟩ (by decide +kernel) hfl (by decide)
    simp only at this
    rw [this]
    simp [dmxValue]
  | false =>
    have := getAttr_none Node.kAttribute (conv F) (cond d) (fun f => dmxText (bytesAt 2 o p) (d f)) "Color" (by
      intro j hj ha
      have : ∀ j ∈ Node.kAttribute.writes, j.attr = "Color" → j.guard = .on "fHasColor" := by decide +kernel
      rw [this j hj ha]
      exact hfl)
    rw [this]
    simp only [Option.isSome_none, Bool.false_eq_true, if_false]
    rw [unread_other _ _ _ _ _ (by decide), readNow_other F _ "fHasColor" _ _ (by decide +kernel), show Node.kAttribute.name = "GdtfAttribute" from rfl, hinit]
    rfl

/-- **C80, flags of a channel set.** A channel set has physical values of its own after reading if it had some before. -/
theorem C80_set_physical (F : Fl) (init : String → Members) (fresh : String → Obj Members) (hi : Suitable init) (o : Obj Members)
    (h : Ordinary init o) (p : List (Nat × Nat)) (d : Members) (hc : classAt o p = some "GdtfDmxChannelSet") (hd : dataAt o p = some d)
    (b : Bool) (hb : d "fSetPhysical" = .flag b) :
    ∃ d', dataAt (readValues F init fresh o.cls (writeValues F init fresh o)) p = some d' ∧ d' "fSetPhysical" = .flag b := by
  refine ⟨_, place_back F init fresh hi o h p Node.kDmxChannelSet (by decide +kernel) d hc hd, ?_⟩
  have hfl : cond d "fSetPhysical" = b := by
    unfold cond
    rw [if_neg (by decide), if_neg (by decide), if_neg (by decide), if_neg (by decide), if_neg (by decide), if_neg (by decide), hb]
    rfl
  have hreal : ∀ f, (⟨"PhysicalFrom", f, (.val "ConvertDouble"), .on "fSetPhysical"⟩ : Item) ∈ Node.kDmxChannelSet.writes ∨
      (⟨"PhysicalTo", f, (.val "ConvertDouble"), .on "fSetPhysical"⟩ : Item) ∈ Node.kDmxChannelSet.writes →
      (conv F).enc (.val "ConvertDouble") (dmxText (bytesAt 2 o p) (d f)) ≠ [] := by
    intro f hf
    have hcv : cvOf (.val "ConvertDouble") = some .real := by decide +kernel
    have hw : ∃ a, Writes "GdtfDmxChannelSet" ⟨a, f, (.val "ConvertDouble"), .on "fSetPhysical"⟩ := by
      have hdef : ∀ u, ("GdtfDmxChannelSet", u, f) ∉ Node.Spec.deferred := by
        intro u hu
        have : ∀ p ∈ Node.Spec.deferred, p.1 ≠ "GdtfDmxChannelSet" := by decide +kernel
        exact this _ hu rfl
      rcases hf with hf | hf
      · exact ⟨_, Node.kDmxChannelSet, by decide +kernel, rfl, hf, by simp, by simp, hdef⟩
      · exact ⟨_, Node.kDmxChannelSet, by decide +kernel, rfl, hf, by simp, by simp, hdef⟩
    obtain ⟨a, hw⟩ := hw
    have hs := hi _ _ .real hw hcv
    have ht := h.typed p _ d hc hd f
    have htr : typeOf (d f) = .of .real := by
      rw [ht]
      unfold suits at hs
      split at hs
      · rename_i c hc; rw [hc, beq_iff_eq.1 hs]
      · cases hs
      · cases hs
      · cases hs
      · cases hs
    obtain ⟨x, hx⟩ := is_real htr
    rw [hx]
    simp only [conv, hcv, dmxText, enc]
    exact toTxt_ne_nil (printReal_ne_nil x)
  unfold readBack after put
  rw [if_neg (by decide), if_pos (show Node.kDmxChannelSet.name = "GdtfDmxChannelSet" from rfl)]
  simp only [if_true]
  cases b with
  | true =>
    have h1 := attr_executed F Node.kDmxChannelSet (by decide +kernel) d (bytesAt 2 o p) (by decide)
      ⟨"PhysicalFrom", "fPhysicalStart", (.val "ConvertDouble"), .on "fSetPhysical"⟩ (by decide +kernel) hfl (by decide)
    have h2 := attr_executed F Node.kDmxChannelSet (by decide +kernel) d (bytesAt 2 o p) (by decide)
      ⟨"PhysicalTo", "fPhysicalEnd", (.val "ConvertDouble"), .on "fSetPhysical"⟩ (by decide +kernel) hfl (by decide)
    simp only at h1 h2
    rw [h1, h2]
    simp only [Option.getD_some]
    rw [decide_eq_true (hreal "fPhysicalStart" (Or.inl (by decide +kernel))),
      decide_eq_true (hreal "fPhysicalEnd" (Or.inr (by decide +kernel)))]
    rfl
  | false =>
    have := getAttr_none Node.kDmxChannelSet (conv F) (cond d) (fun f => dmxText (bytesAt 2 o p) (d f)) "PhysicalTo" (by
      intro j hj ha
      have : ∀ j ∈ Node.kDmxChannelSet.writes, j.attr = "PhysicalTo" → j.guard = .on "fSetPhysical" := by decide +kernel
      rw [this j hj ha]
      exact hfl)
    rw [this]
    rfl

/-- **C80, flags of a fixture.** A fixture refers to another fixture type after reading if it did before. -/
theorem C80_linked_fixture (F : Fl) (init : String → Members) (fresh : String → Obj Members) (hi : Suitable init) (o : Obj Members)
    (h : Ordinary init o) (p : List (Nat × Nat)) (d : Members) (hc : classAt o p = some "GdtfFixture") (hd : dataAt o p = some d)
    (b : Bool) (hb : d "fHasLinkedGuid" = .flag b) :
    ∃ d', dataAt (readValues F init fresh o.cls (writeValues F init fresh o)) p = some d' ∧ d' "fHasLinkedGuid" = .flag b := by
  refine ⟨_, place_back F init fresh hi o h p Node.kFixture (by decide +kernel) d hc hd, ?_⟩
  have hfl : cond d "fHasLinkedGuid" = b := by
    unfold cond
    rw [if_neg (by decide), if_neg (by decide), if_neg (by decide), if_neg (by decide), if_neg (by decide), if_neg (by decide), hb]
    rfl
  unfold readBack after put
  rw [if_neg (by decide), if_neg (by decide), if_pos (show Node.kFixture.name = "GdtfFixture" from rfl)]
  simp only [if_true]
  cases b with
  | true =>
    have hcv : cvOf (.val "ConvertUUID") = some .uuid := by decide +kernel
    have hw : Writes "GdtfFixture" ⟨"RefFT", "fLinkedGuid", (.val "ConvertUUID"), .on "fHasLinkedGuid"⟩ :=
      ⟨Node.kFixture, by decide +kernel, rfl, by decide +kernel, by decide, by decide, by
        intro u hu
        have : ∀ p ∈ Node.Spec.deferred, p.1 ≠ "GdtfFixture" := by decide +kernel
        exact this _ hu rfl⟩
    have hs := hi _ _ .uuid hw hcv
    have htr : typeOf (d "fLinkedGuid") = .of .uuid := by
      rw [h.typed p _ d hc hd]
      unfold suits at hs
      split at hs
      · rename_i c hc; rw [hc, beq_iff_eq.1 hs]
      · cases hs
      · cases hs
      · cases hs
      · cases hs
    obtain ⟨x, hx⟩ := is_uuid htr
    have hl : x.length = 16 := by
      have := h.kept p _ d hc hd "fLinkedGuid"
      rw [hx] at this
      exact this
    have h1 := attr_executed F Node.kFixture (by decide +kernel) d (bytesAt 2 o p) (by decide)
      ⟨"RefFT", "fLinkedGuid", (.val "ConvertUUID"), .on "fHasLinkedGuid"⟩ (by decide +kernel) hfl (by decide)
    simp only at h1
    rw [h1, hx]
    simp only [conv, hcv, dmxText, enc, Option.getD_some]
    rw [chars_back _ (small_uuid x), Uuid.C09_converter x [] hl]
    rfl
  | false =>
    have h1 : getAttr (Node.kFixture.write (conv F) (cond d) (fun f => dmxText (bytesAt 2 o p) (d f))) "RefFT" = some [] := by
      have hg : (Node.Guard.off "fHasLinkedGuid").holds (cond d) = true := by
        show (!cond d "fHasLinkedGuid") = true
        rw [hfl]; rfl
      exact getAttr_write Node.kFixture (conv F) (cond d) _ ⟨"RefFT", "", .blank, .off "fHasLinkedGuid"⟩ (by decide +kernel) hg
        (fun j hj hgj h => unique_write Node.kFixture (by decide +kernel) d (fun e => absurd e (by decide)) _ j (by decide +kernel) hj hg hgj h)
    rw [h1]
    have : Uuid.convertFromText (toChars []) [] = ⟨false, false, []⟩ := by decide +kernel
    rw [Option.getD_some, this]
    rfl

end Verif.Gdtf
