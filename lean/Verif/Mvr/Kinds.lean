import Verif.Mvr.File

/-!
# MVR scenes survive writing and reading (C65)

The table of classes covers every kind of object of the specification, with all values of the types of its members.
-/

namespace Verif.Mvr

open Verif.Real Verif.Dmx Spec Inner

/-- All values of a type are written in a form that keeps them. -/
def covers : Ty → Codec → Bool
  | .text, .text => true
  | .text, .optText => true
  | .uuid, .uuid => true
  | .int lo hi, .sint w => (w == 8 || w == 32) && decide (-(2 ^ (w - 1) : Int) ≤ lo ∧ hi < 2 ^ (w - 1))
  | .int lo hi, .uint32 => decide (0 ≤ lo ∧ hi < 2 ^ 31)
  | .int lo hi, .size => decide (0 ≤ lo ∧ hi < 2 ^ 31)
  | .int lo hi, .sizeAs32 => decide (0 ≤ lo ∧ hi < 2 ^ 31)
  | .int lo hi, .sizeFrom32 => decide (0 ≤ lo ∧ hi < 2 ^ 31)
  | .flag, .flag => true
  | .number, .real => true
  | .point, .vec => true
  | .color, .color => true
  | .matrix, .matrix => true
  | .source, .source => true
  | .scale, .scale => true
  | .transmission, .transmission => true
  | .command, .command => true
  | _, _ => false

theorem covers_kept {t : Ty} {c : Codec} {v : Val} (h : covers t c = true) (hv : Holds t v) : Kept c v := by
  unfold covers at h
  split at h <;> cases v <;> simp only [Holds, Kept, Bool.and_eq_true, Bool.or_eq_true, beq_iff_eq, decide_eq_true_eq, Bool.false_eq_true] at h hv ⊢ <;>
    first | exact hv | exact ⟨h.1, by omega, by omega⟩ | omega

/-- A field of the table keeps a value of the specification. -/
def fieldCovers (v : Value) (f : Field) : Bool := v.member == f.member && covers v.ty f.codec && (f.place != .own || v.between)

/-- A slot of the table takes the objects of a member. -/
def slotCovers (m : Member) (s : Slot) : Bool :=
  m.member == s.member && m.classes.all (fun c => s.holds.contains c) &&
    match s.how with
    | .many => true
    | .first => m.most == some 1 || m.most == some 0
    | .needed => m.least == 1 && m.most == some 1
    | .embedded => m.least == 1 && m.most == some 1

/-- Two lists agree item by item. -/
def pairs {α β : Type} (f : α → β → Bool) : List α → List β → Bool
  | [], [] => true
  | a :: as, b :: bs => f a b && pairs f as bs
  | _, _ => false

theorem pairs_length {α β : Type} {f : α → β → Bool} : ∀ {as : List α} {bs : List β}, pairs f as bs = true → as.length = bs.length
  | [], [], _ => rfl
  | a :: as, b :: bs, h => by
    rw [pairs, Bool.and_eq_true] at h
    rw [List.length_cons, List.length_cons, pairs_length h.2]
  | [], _ :: _, h => by simp [pairs] at h
  | _ :: _, [], h => by simp [pairs] at h

/-- A class of the table writes everything of a kind of objects. -/
def classCovers (k : Kind) (c : Class) : Bool := c.name == k.cls && pairs fieldCovers k.values c.fields && pairs slotCovers k.members c.slots

theorem kinds_covered : ∀ k ∈ kinds, classes.any (classCovers k) = true := by decide +kernel

theorem kind_class {k : Kind} (hk : k ∈ kinds) : ∃ c ∈ classes, c.name = k.cls ∧ pairs fieldCovers k.values c.fields = true ∧
    pairs slotCovers k.members c.slots = true := by
  obtain ⟨c, hc, h⟩ := List.any_eq_true.1 (kinds_covered k hk)
  unfold classCovers at h
  simp only [Bool.and_eq_true, beq_iff_eq] at h
  exact ⟨c, hc, h.1.1, h.1.2, h.2⟩

theorem holds_kept : ∀ {fs : List Value} {gs : List Field} {vs : List Val}, pairs fieldCovers fs gs = true → HoldsAll fs vs → KeptAll gs vs
  | [], [], [], _, _ => by simp [KeptAll]
  | [], [], _ :: _, _, h => by simp [HoldsAll] at h
  | f :: fs, g :: gs, [], _, h => by simp [HoldsAll] at h
  | f :: fs, g :: gs, v :: vs, hp, h => by
    rw [pairs, Bool.and_eq_true] at hp
    rw [HoldsAll] at h
    rw [KeptAll]
    have := hp.1
    unfold fieldCovers at this
    simp only [Bool.and_eq_true] at this
    exact ⟨covers_kept this.1.2 h.1, holds_kept hp.2 h.2⟩
  | [], _ :: _, _, h, _ => by simp [pairs] at h
  | _ :: _, [], _, h, _ => by simp [pairs] at h

theorem contents_fits {m : Member} {s : Slot} {k : List Obj} (h : slotCovers m s = true) (hc : Contents m k) : Fits s k := by
  unfold slotCovers at h
  simp only [Bool.and_eq_true, List.all_eq_true] at h
  obtain ⟨⟨-, h1⟩, h2⟩ := h
  obtain ⟨c1, c2, c3⟩ := hc
  refine ⟨fun o ho => by simpa using h1 _ (c1 o ho), ?_⟩
  cases hh : s.how with
  | many => trivial
  | first =>
    rw [hh] at h2
    simp only [Bool.or_eq_true, beq_iff_eq] at h2
    show k.length ≤ 1
    rcases h2 with h2 | h2
    · exact c3 1 h2
    · have := c3 0 h2; omega
  | needed =>
    rw [hh] at h2
    simp only [Bool.and_eq_true, beq_iff_eq] at h2
    show k.length = 1
    have := c3 1 h2.2
    omega
  | embedded =>
    rw [hh] at h2
    simp only [Bool.and_eq_true, beq_iff_eq] at h2
    show k.length = 1
    have := c3 1 h2.2
    omega

theorem all_fits : ∀ {ms : List Member} {ss : List Slot} {ks : List (List Obj)}, pairs slotCovers ms ss = true →
    (∀ p ∈ ms.zip ks, Contents p.1 p.2) → ∀ p ∈ ss.zip ks, Fits p.1 p.2
  | [], [], _, _, _, p, h => by simp at h
  | m :: ms, s :: ss, [], _, _, p, h => by simp at h
  | m :: ms, s :: ss, k :: ks, hp, hc, p, h => by
    rw [pairs, Bool.and_eq_true] at hp
    rw [List.zip_cons_cons, List.mem_cons] at h
    rcases h with h | h
    · rw [h]; exact contents_fits hp.1 (hc (m, k) (by simp))
    · exact all_fits hp.2 (fun q hq => hc q (by simp [hq])) p h
  | [], _ :: _, _, h, _, _, _ => by simp [pairs] at h
  | _ :: _, [], _, h, _, _, _ => by simp [pairs] at h

/-- Every tree of the specification is one of the table. -/
theorem build_tree {o : Obj} (h : Build o) : Tree o := by
  induction h with
  | mk k vs ks hk hv hg hn hf hb ih =>
    obtain ⟨c, hc, hname, hfs, hss⟩ := kind_class hk
    rw [← hname]
    exact .mk c vs ks hc (holds_kept hfs hv) (fun e => hg (hname ▸ e)) (by rw [hn, pairs_length hss]) (all_fits hss hf) ih

theorem tidy_clean : ∀ {fs : List Value} {gs : List Field} {vs : List Val}, pairs fieldCovers fs gs = true → TidyVals fs vs → CleanVals gs vs
  | [], [], _, _, _ => by simp [CleanVals]
  | f :: fs, g :: gs, [], _, _ => by simp [CleanVals]
  | f :: fs, g :: gs, v :: vs, hp, h => by
    rw [pairs, Bool.and_eq_true] at hp
    rw [TidyVals] at h
    rw [CleanVals]
    refine ⟨?_, tidy_clean hp.2 h.2⟩
    have := hp.1
    unfold fieldCovers at this
    simp only [Bool.and_eq_true, Bool.or_eq_true, bne_iff_ne] at this
    have h1 := h.1
    cases v <;> simp only [Tidy, CleanVal] at h1 ⊢
    · refine ⟨h1.1, fun e => h1.2 ?_⟩
      rcases this.2 with h3 | h3
      · exact absurd e h3
      · exact h3
    all_goals exact h1
  | [], _ :: _, _, h, _ => by simp [pairs] at h
  | _ :: _, [], _, h, _ => by simp [pairs] at h

theorem tidyList_mem : ∀ {k : List Obj}, TidyList k → ∀ o ∈ k, TidyTree o
  | [], _, _, h => by cases h
  | a :: k, hc, o, h => by
    rw [TidyList] at hc
    rcases List.mem_cons.1 h with h | h
    · rw [h]; exact hc.1
    · exact tidyList_mem hc.2 o h

theorem tidyKids_mem : ∀ {ks : List (List Obj)}, TidyKids ks → ∀ k ∈ ks, ∀ o ∈ k, TidyTree o
  | [], _, _, h => by cases h
  | a :: ks, hc, k, h => by
    rw [TidyKids] at hc
    rcases List.mem_cons.1 h with h | h
    · rw [h]; exact tidyList_mem hc.1
    · exact tidyKids_mem hc.2 k h

theorem cleanList_of : ∀ {k : List Obj}, (∀ o ∈ k, CleanTree o) → CleanList k
  | [], _ => by simp [CleanList]
  | o :: k, h => by rw [CleanList]; exact ⟨h o (by simp), cleanList_of (fun p hp => h p (by simp [hp]))⟩

theorem cleanKids_of : ∀ {ks : List (List Obj)}, (∀ k ∈ ks, ∀ o ∈ k, CleanTree o) → CleanKids ks
  | [], _ => by simp [CleanKids]
  | k :: ks, h => by rw [CleanKids]; exact ⟨cleanList_of (h k (by simp)), cleanKids_of (fun p hp => h p (by simp [hp]))⟩

/-- The texts of the tree are clean for the table. -/
theorem build_clean {o : Obj} (h : Build o) : TidyTree o → CleanTree o := by
  induction h with
  | mk k vs ks hk hv hg hn hf hb ih =>
    intro ht
    rw [TidyTree] at ht
    obtain ⟨c, hc, hname, hfs, hss⟩ := kind_class hk
    rw [CleanTree, ← hname, row_of hc]
    exact ⟨tidy_clean hfs (ht.1 k hk rfl), cleanKids_of (fun l hl o ho => ih l hl o ho (tidyKids_mem ht.2 l hl o ho))⟩

/-- C65 (up to the values named in `Holds`): an object that is written and read is the same object, of the same class, with every value
in every member of every object in it, except that empty groups are dropped and numbers have six decimals. -/
theorem C65_partial (F : Fl) (o : Obj) (h : Build o) : Same (prune o) (read classes F o.cls (write classes o)) :=
  inner_back F o (build_tree h)

/-- C65 for the bytes of the file: what is written is read as the same objects, if the nodes are at most 98 levels deep. -/
theorem C65_file_partial (F : Fl) (o : Obj) (h : Build o) (hc : TidyTree o) (hl : Xml.Spec.levels (write classes o) ≤ 98) :
    ∃ x, Xml.readBuffer (Xml.writeXmlText (write classes o)) = some x ∧ Same (prune o) (read classes F o.cls x) :=
  inner_file F o (build_tree h) (build_clean h hc) hl

end Verif.Mvr
