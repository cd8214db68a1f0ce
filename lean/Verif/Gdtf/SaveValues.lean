import Verif.Gdtf.SaveLemmas

/-!
# Lemmas: what reading a node leaves in the members can be saved
-/

namespace Verif.Gdtf

open Spec
open Verif.Lookup (Txt)
open Verif.Str Verif.Real Verif.Text Verif.Dmx Verif.Enum
open Verif.Node (Item Kind kinds getAttr)
open Verif.Mvr (atof_nonneg vector_good color_good matrix_good guid_length)

set_option linter.unusedSimpArgs false

/-! ### One converter -/

/-- What is asked of the text for a converter and a type. -/
def asked : Cv → Ty → Option Limit
  | .int, .int .u32 => some .count
  | .int, .int .size => some .count
  | .int, _ => some .number
  | .brk, _ => some .number
  | .date, _ => some .number
  | .dmx, _ => some .value
  | .offset, _ => some .offset
  | .address, _ => some .address
  | .hex, _ => some .hex
  | _, _ => none

theorem meets_nil (q : Limit) : q.Meets [] := by
  have h9 : NineDigits [] := by
    intro d hd _
    rw [List.infix_nil.1 hd]
    simp
  cases q with
  | number => exact h9
  | count => exact ⟨h9, by simp⟩
  | value => intro h; simp at h
  | offset => exact .inl rfl
  | address => exact .inl rfl
  | hex => simp [Limit.Meets]

theorem meets_count {s : List Char} (h : Limit.count.Meets s) : Limit.number.Meets s := h.1

theorem uuid_length (s : List Char) (u : List Byte) (hu : u.length = 16) : (Uuid.convertFromText s u).value.length = 16 := by
  have h := guid_length s
  unfold Scene.guid at h
  unfold Uuid.convertFromText at h ⊢
  split
  · rename_i t e
    rw [e] at h
    exact h
  · rename_i e
    rw [e] at h
    split
    · exact hu
    · rename_i hs
      rw [if_neg hs] at h
      exact h

/-- The value is of the type and can be saved. -/
def Held (n : Nat) (v w : Val) : Prop := typeOf w = typeOf v ∧ Kept n w

theorem white_good : GoodV white := by unfold GoodV Good white; norm_num

theorem dec_good (F : Fl) (n : Nat) (hn : IsReso n) (cv : Cv) (t : Option Txt) (v : Val) (hs : suits cv v = true)
    (hk : Kept n v ∨ ∃ w i, v = .int w i ∧ toChars (t.getD []) ≠ [])
    (hl : ∀ q, asked cv (typeOf v) = some q → q.Meets (toChars (t.getD []))) : Held n v (dmxValue F n (dec F cv t v)) := by
  cases v with
  | text u =>
    have := cv_of hs rfl; subst this
    cases t <;> exact ⟨rfl, trivial⟩
  | link l =>
    have := cv_of hs rfl; subst this
    exact ⟨rfl, trivial⟩
  | real x =>
    have := cv_of hs rfl; subst this
    rcases hk with hk | ⟨_, _, e, _⟩
    · simp only [dec]
      split
      · exact ⟨rfl, hk⟩
      · exact ⟨rfl, atof_nonneg F _⟩
    · cases e
  | int w i =>
    have := cv_int hs rfl; subst this
    have h9 : NineDigits (toChars (t.getD [])) ∧ (w = .u32 ∨ w = .size → '-' ∉ toChars (t.getD [])) := by
      cases w with
      | s32 => exact ⟨hl _ rfl, by rintro (h | h) <;> cases h⟩
      | u8 => exact ⟨hl _ rfl, by rintro (h | h) <;> cases h⟩
      | u32 => have := hl _ rfl; exact ⟨this.1, fun _ => this.2⟩
      | size => have := hl _ rfl; exact ⟨this.1, fun _ => this.2⟩
    obtain ⟨j, e, hj⟩ := int_good (i := i) h9.1 h9.2 (fun e => by
      rcases hk with hk | ⟨_, _, _, hne⟩
      · exact hk
      · exact absurd e hne)
    simp only [dec]
    rw [e]
    exact ⟨rfl, hj⟩
  | matrix m =>
    have := cv_of hs rfl; subst this
    rcases hk with hk | ⟨_, _, e, _⟩
    · obtain ⟨c, e, hc⟩ := matrix_good F (toChars (t.getD [])) (old := m) hk
      simp only [dec]
      rw [e]
      exact ⟨rfl, hc⟩
    · cases e
  | rotation m =>
    have := cv_of hs rfl; subst this
    rcases hk with hk | ⟨_, _, e, _⟩
    · obtain ⟨c, e, hc⟩ := rotation_good F (toChars (t.getD [])) (old := m) hk
      simp only [dec]
      rw [e]
      exact ⟨rfl, hc⟩
    · cases e
  | color c =>
    have := cv_of hs rfl; subst this
    obtain ⟨c, e, hc⟩ := color_good F (toChars (t.getD [])) (old := white) white_good
    simp only [dec]
    rw [e]
    exact ⟨rfl, hc⟩
  | colors cs =>
    have := cv_of hs rfl; subst this
    obtain ⟨c, e, hc⟩ := colors_good F (toChars (t.getD []))
    simp only [dec]
    rw [e]
    exact ⟨rfl, hc⟩
  | point x y =>
    have := cv_of hs rfl; subst this
    obtain ⟨c, e, hc⟩ := point_good F (toChars (t.getD []))
    simp only [dec]
    rw [e]
    exact ⟨rfl, hc⟩
  | vec v =>
    have := cv_of hs rfl; subst this
    rcases hk with hk | ⟨_, _, e, _⟩
    · obtain ⟨c, e, hc⟩ := vector_good F (toChars (t.getD [])) (old := v) hk
      simp only [dec]
      rw [e]
      exact ⟨rfl, hc⟩
    · cases e
  | dmx v =>
    have : cv = .dmx := by
      unfold suits at hs
      exact beq_iff_eq.1 hs
    subst this
    obtain ⟨c, e, hc⟩ := dmx_good F hn (s := toChars (t.getD [])) (hl _ rfl)
    simp only [dec, dmxValue]
    rw [e]
    exact ⟨rfl, hc⟩
  | high v b =>
    have : cv = .dmx := by
      unfold suits at hs
      exact beq_iff_eq.1 hs
    subst this
    obtain ⟨c, e, hc⟩ := high_good F hn (s := toChars (t.getD [])) (hl _ rfl)
    simp only [dec, dmxValue]
    rw [e]
    exact ⟨rfl, hc⟩
  | raw t => cases hs
  | rawHigh t => cases hs
  | hex v =>
    have := cv_of hs rfl; subst this
    exact ⟨rfl, hex_good (s := toChars (t.getD [])) (hl _ rfl)⟩
  | uuid u =>
    have := cv_of hs rfl; subst this
    rcases hk with hk | ⟨_, _, e, _⟩
    · exact ⟨rfl, uuid_length _ _ hk⟩
    · cases e
  | offset o =>
    have := cv_of hs rfl; subst this
    obtain ⟨c, e, hc⟩ := offset_good (s := toChars (t.getD [])) (hl _ rfl)
    simp only [dec]
    rw [e]
    exact ⟨rfl, hc⟩
  | brk i =>
    have := cv_of hs rfl; subst this
    rcases hk with hk | ⟨_, _, e, _⟩
    · obtain ⟨c, e, hc⟩ := break_good (s := toChars (t.getD [])) (i := i) (hl _ rfl) hk
      simp only [dec]
      rw [e]
      exact ⟨rfl, hc⟩
    · cases e
  | date d =>
    have := cv_of hs rfl; subst this
    obtain ⟨c, e, hc⟩ := date_good (s := toChars (t.getD [])) (hl _ rfl)
    simp only [dec]
    rw [e]
    exact ⟨rfl, hc⟩
  | address a =>
    have := cv_of hs rfl; subst this
    obtain ⟨c, e, hc⟩ := address_good (s := toChars (t.getD [])) (hl _ rfl)
    simp only [dec]
    rw [e]
    exact ⟨rfl, hc⟩
  | undef => cases hs
  | _ =>
    have := cv_of hs rfl; subst this
    exact ⟨rfl, trivial⟩

/-! ### What the constructors leave -/

/-- `Kept`, as a computation, where it is needed for constructors. -/
def keptB : Val → Bool
  | .real x => decide (0 ≤ x.mag)
  | .int .s32 i => decide (-2 ^ 31 ≤ i ∧ i < 2 ^ 31)
  | .int .u8 i => decide (0 ≤ i ∧ i < 2 ^ 8)
  | .int _ i => decide (0 ≤ i ∧ i < 2 ^ 31)
  | .rotation m => decide (m = .identity)
  | .color c => decide (0 ≤ c.x.mag ∧ 0 ≤ c.y.mag ∧ 0 ≤ c.z.mag)
  | .colors cs => cs.isEmpty
  | .vec c => decide (0 ≤ c.x.mag ∧ 0 ≤ c.y.mag ∧ 0 ≤ c.z.mag)
  | .dmx v => v == 0
  | .high _ b => b
  | .hex v => decide (v ≤ 65535)
  | .uuid u => u.length == 16
  | .offset o => decide (o = ⟨0, 0, 0, 0⟩)
  | .brk i => decide (-2 ^ 31 ≤ i ∧ i < 2 ^ 31)
  | .date t => decide (t = ⟨0, 0, 0, 0, 0, 0⟩)
  | .address a => decide (1 ≤ a ∧ a ≤ 65535)
  | .matrix _ => false
  | .point _ _ => false
  | .rawHigh _ => false
  | .undef => false
  | _ => true

theorem identity_good : GoodV Mat.identity.u ∧ GoodV Mat.identity.v ∧ GoodV Mat.identity.w ∧ GoodV Mat.identity.o := by
  simp [GoodV, Good, Mat.identity, zero, one]

theorem keptB_sound (n : Nat) (v : Val) (h : keptB v = true) : Kept n v := by
  cases v with
  | int w i => cases w <;> simpa [keptB, Kept, InType] using h
  | rotation m =>
    have : m = .identity := by simpa [keptB] using h
    subst this
    exact ⟨identity_good.1, identity_good.2.1, identity_good.2.2.1⟩
  | colors cs =>
    have : cs = [] := by simpa [keptB] using h
    subst this
    simp [Kept]
  | dmx v =>
    have : v = 0 := by simpa [keptB] using h
    subst this
    exact Nat.zero_le _
  | high v b => exact .inl h
  | offset o =>
    have : o = ⟨0, 0, 0, 0⟩ := by simpa [keptB] using h
    subst this
    simp [Kept, Offset.Valid]
  | date d =>
    have : d = ⟨0, 0, 0, 0, 0, 0⟩ := by simpa [keptB] using h
    subst this
    simp [Kept, Time.Fits]
  | real x => simpa [keptB, Kept, Good] using h
  | color c => simpa [keptB, Kept, GoodV, Good] using h
  | vec c => simpa [keptB, Kept, GoodV, Good] using h
  | hex v => simpa [keptB, Kept] using h
  | uuid v => simpa [keptB, Kept] using h
  | brk v => simpa [keptB, Kept] using h
  | address v => simpa [keptB, Kept] using h
  | matrix m => cases h
  | point x y => cases h
  | rawHigh t => cases h
  | undef => cases h
  | _ => trivial

theorem table_ctors : ∀ p ∈ ctors, keptB p.2 = true := by decide +kernel

/-- A whole number that is not initialised. -/
def Bare (cls f : String) : Prop := ∃ p, unset.find? (fun p => p.1 == (cls, f)) = some p ∧ (p.2 = .size ∨ p.2 = .u32)

theorem ctor_kept (m : Memory) (hm : Numbers m) (n : Nat) (cls f : String) (h : ¬ Bare cls f) : Kept n (ctor m cls f) := by
  unfold ctor
  split
  · rename_i p hp
    have hx : p.2 ≠ .size ∧ p.2 ≠ .u32 := ⟨fun e => h ⟨p, hp, .inl e⟩, fun e => h ⟨p, hp, .inr e⟩⟩
    cases hr : p.2 with
    | size => exact absurd hr hx.1
    | u32 => exact absurd hr hx.2
    | real => exact hm _ _
    | point => exact ⟨hm _ _, hm _ _⟩
    | flag => trivial
    | truss => trivial
    | section_ => trivial
    | support => trivial
  · unfold made
    split
    · rename_i p hp
      exact keptB_sound n _ (table_ctors p (List.mem_of_find?_eq_some hp))
    · split
      · exact identity_good
      · split <;> trivial

theorem table_later : ∀ p ∈ ctors, final p.2 = true ∨ (Node.Spec.deferred.any (fun q => decide (q.1 = p.1.1 ∧ q.2.2 = p.1.2))) = true := by
  decide +kernel

theorem ctor_final (m : Memory) (cls f : String) (h : ¬ Later cls f) : final (ctor m cls f) = true := by
  unfold ctor
  split
  · rename_i p _
    cases p.2 <;> rfl
  · unfold made
    split
    · rename_i p hp
      rcases table_later p (List.mem_of_find?_eq_some hp) with h1 | h1
      · exact h1
      · exfalso
        obtain ⟨q, hq, he⟩ := List.any_eq_true.1 h1
        have he2 := of_decide_eq_true he
        have hp2 := List.find?_some hp
        have : p.1 = (cls, f) := by simpa using hp2
        rw [this] at he2
        obtain ⟨e1, e2⟩ : q.1 = cls ∧ q.2.2 = f := he2
        exact h ⟨q.2.1, by rw [← e1, ← e2]; exact hq⟩
    · split
      · rfl
      · split <;> rfl

theorem ctor_held (F : Fl) (m : Memory) (hm : Numbers m) (n : Nat) (cls f : String) (h : ¬ Bare cls f) (hl : ¬ Later cls f) :
    Held n (ctor m cls f) (dmxValue F n (ctor m cls f)) := by
  rw [dmx_final F n _ (ctor_final m cls f hl)]
  exact ⟨rfl, ctor_kept m hm n cls f h⟩

/-! ### One node -/

theorem table_reads_suit : ∀ k ∈ kinds, ∀ j ∈ k.reads, (match cvOf j.codec with
    | some cv => suits cv (ctor zeros k.name j.field)
    | none => false) = true := by decide +kernel

theorem table_asked : ∀ k ∈ kinds, ∀ j ∈ k.reads, (match cvOf j.codec with
    | some cv => match asked cv (typeOf (ctor zeros k.name j.field)) with
      | some q => limits.any (fun r => decide (r.1 = nodeFor k.name ∧ r.2.1 = j.attr ∧ (r.2.2 = q ∨ (r.2.2 = .count ∧ q = .number))))
      | none => true
    | none => true) = true := by decide +kernel

/-- Whole numbers that are not initialised are read, in every case, from attributes that have to be there. -/
theorem table_bare : ∀ p ∈ unset, (p.2 = .size ∨ p.2 = .u32) → (kinds.any fun k => decide (k.name = p.1.1) && k.reads.any fun j =>
      decide (j.field = p.1.2 ∧ j.guard = .always) && needed.any fun q => decide (q.1 = nodeFor k.name ∧ q.2 = j.attr)) = true := by
  decide +kernel

theorem table_bare_skip : ∀ p ∈ unset, (p.2 = .size ∨ p.2 = .u32) → skipped p.1.1 p.1.2 = false ∧ p.1.2 ≠ "fHasColor" ∧ p.1.2 ≠ "fSetPhysical" ∧
    p.1.2 ≠ "fHasLinkedGuid" ∧ p.1.1 ≠ "GdtfFixture" := by
  decide +kernel

theorem read_held (F : Fl) (m : Memory) (hm : Numbers m) (n : Nat) (hn : IsReso n) (k : Kind) (hk : k ∈ kinds) (e : Elem)
    (hw : sameWord e.name (nodeFor k.name) = true) (he : SaneNode e) (j : Item) (hj : j ∈ k.reads)
    (hb : Bare k.name j.field → ∃ t, getAttr e.attrs j.attr = some t ∧ t ≠ []) :
    Held n (ctor m k.name j.field) (dmxValue F n ((conv F).dec j.codec (getAttr e.attrs j.attr) (ctor m k.name j.field))) := by
  have hs := table_reads_suit k hk j hj
  have ha := table_asked k hk j hj
  cases hc : cvOf j.codec with
  | none => rw [hc] at hs; cases hs
  | some cv =>
    rw [hc] at hs ha
    simp only at hs ha
    have ht := ctor_type m zeros k.name j.field
    simp only [conv, hc]
    apply dec_good F n hn cv _ _ (suits_type ht.symm hs)
    · by_cases hbare : Bare k.name j.field
      · right
        obtain ⟨t, h1, h2⟩ := hb hbare
        obtain ⟨p, hp, hx⟩ := hbare
        rw [ctor_raw m _ _ p hp, h1]
        have hne : toChars ((some t).getD []) ≠ [] := by
          intro e
          exact h2 (List.map_eq_nil_iff.1 e)
        rcases hx with hx | hx <;> rw [hx] <;> exact ⟨_, _, rfl, hne⟩
      · exact .inl (ctor_kept m hm n _ _ hbare)
    · intro q hq
      rw [ht] at hq
      rw [hq] at ha
      simp only at ha
      obtain ⟨r, hr, hd⟩ := List.any_eq_true.1 ha
      obtain ⟨r1, r2, r3⟩ := of_decide_eq_true hd
      cases hg : getAttr e.attrs j.attr with
      | none => exact meets_nil q
      | some t =>
        have := he.limits r hr (by rw [r1]; exact hw) t (by rw [r2]; exact hg)
        rcases r3 with r3 | ⟨r3, r4⟩
        · rw [← r3]; exact this
        · rw [r3] at this; rw [r4]; exact meets_count this

/-- A member after all statements. -/
theorem statements_held (F : Fl) (m : Memory) (hm : Numbers m) (n : Nat) (hn : IsReso n) (k : Kind) (hk : k ∈ kinds) (e : Elem)
    (hw : sameWord e.name (nodeFor k.name) = true) (he : SaneNode e) (f : String) (hl : ¬ Later k.name f) :
    Held n (ctor m k.name f) (dmxValue F n (unread k.name e.attrs (ctor m k.name) (readNow F k.reads e.attrs (ctor m k.name)) f)) := by
  by_cases hb : Bare k.name f
  · obtain ⟨p, hp, hx⟩ := hb
    have hmem := List.mem_of_find?_eq_some hp
    have hp2 : p.1 = (k.name, f) := by simpa using List.find?_some hp
    obtain ⟨k', hk', hkn⟩ := List.any_eq_true.1 (table_bare p hmem hx)
    rw [Bool.and_eq_true] at hkn
    obtain ⟨j, hj, hjn⟩ := List.any_eq_true.1 hkn.2
    rw [Bool.and_eq_true] at hjn
    obtain ⟨q, hq, hqn⟩ := List.any_eq_true.1 hjn.2
    have hname : k'.name = k.name := by rw [of_decide_eq_true hkn.1, hp2]
    have hkk : k' = k := by
      have h1 := table_find k hk
      have h2 := table_find k' hk'
      rw [hname, h1] at h2
      exact (Option.some.inj h2).symm
    subst hkk
    obtain ⟨jf, jg⟩ := of_decide_eq_true hjn.1
    obtain ⟨q1, q2⟩ := of_decide_eq_true hqn
    have hjf : j.field = f := by rw [jf, hp2]
    subst hjf
    have hsk := (table_bare_skip p hmem hx).1
    rw [hp2] at hsk
    rw [unread_other _ _ _ _ _ (fun s hs h1 h2 => by
      have : skipped k'.name j.field = true := List.any_eq_true.2 ⟨s, hs, by simp [h1, h2]⟩
      rw [hsk] at this
      cases this)]
    rw [readNow_mem F k' hk e.attrs _ j hj jg]
    apply read_held F m hm n hn k' hk e hw he j hj
    intro _
    obtain ⟨t, ht, hne⟩ := he.needed q hq (by rw [q1]; exact hw)
    exact ⟨t, by rw [← q2]; exact ht, hne⟩
  · unfold unread
    split
    · exact ctor_held F m hm n _ _ hb hl
    · by_cases hr : ∃ j ∈ k.reads, j.field = f
      · obtain ⟨j, hj, rfl⟩ := hr
        rcases readNow_either F k hk e.attrs (ctor m k.name) j hj with h | ⟨-, h⟩
        · rw [h]
          exact read_held F m hm n hn k hk e hw he j hj (fun h => absurd h hb)
        · rw [h]
          exact ctor_held F m hm n _ _ hb hl
      · rw [readNow_other F e.attrs f k.reads _ (fun i hi e => hr ⟨i, hi, e⟩)]
        exact ctor_held F m hm n _ _ hb hl

theorem flag_types (m : Memory) : typeOf (ctor m "GdtfAttribute" "fHasColor") = .of .flag ∧ typeOf (ctor m "GdtfDmxChannelSet" "fSetPhysical") = .of .flag ∧
    typeOf (ctor m "GdtfFixture" "fHasLinkedGuid") = .of .flag ∧ typeOf (ctor m "GdtfFixture" "fName") = .of .text := by
  rw [ctor_type m zeros, ctor_type m zeros, ctor_type m zeros, ctor_type m zeros]
  decide +kernel

/-- **The members of one object.** -/
theorem members_held (F : Fl) (m : Memory) (fresh : String → Obj Members) (hm : Numbers m) (n : Nat) (hn : IsReso n) (k : Kind) (hk : k ∈ kinds) (e : Elem)
    (hw : sameWord e.name (nodeFor k.name) = true) (he : SaneNode e) (f : String) (hl : ¬ Later k.name f) :
    Held n (ctor m k.name f) (valueOf F m fresh n k.name e.attrs f) := by
  have hst := statements_held F m hm n hn k hk e hw he f hl
  obtain ⟨f1, f2, f3, f4⟩ := flag_types m
  unfold valueOf
  rw [schema_dec F (ctor m) fresh k hk e.attrs]
  generalize hb : unread k.name e.attrs (ctor m k.name) (readNow F k.reads e.attrs (ctor m k.name)) = base at hst
  unfold after
  split
  · rename_i hc
    split
    · unfold put
      by_cases hf : f = "fHasColor"
      · rw [if_pos hf, hc, hf]
        exact ⟨f1.symm, trivial⟩
      · rw [if_neg hf]; exact hst
    · exact hst
  · split
    · rename_i hc
      unfold put
      by_cases hf : f = "fSetPhysical"
      · rw [if_pos hf, hc, hf]
        exact ⟨f2.symm, trivial⟩
      · rw [if_neg hf]; exact hst
    · split
      · rename_i hc
        unfold put
        by_cases hf : f = "fHasLinkedGuid"
        · rw [if_pos hf, hc, hf]
          exact ⟨f3.symm, trivial⟩
        · rw [if_neg hf]
          by_cases hg : f = "fName"
          · rw [if_pos hg]
            rw [hc, hg] at hst ⊢
            have ht := hst.1
            rw [f4] at ht
            obtain ⟨t, e⟩ := is_text ht
            have hbt : base "fName" = .text t := by
              cases hv : base "fName" <;> rw [hv] at e <;> simp only [dmxValue] at e <;> first
                | exact e
                | (unfold result at e; split at e <;> cases e)
            rw [hbt]
            exact ⟨f4.symm, trivial⟩
          · rw [if_neg hg]; exact hst
      · exact hst

/-- The name of a fixture that was read has no slash. -/
theorem read_noSlash (F : Fl) (m : Memory) (fresh : String → Obj Members) (n : Nat) (node : Attrs) :
    NoSlash (fun f => valueOf F m fresh n "GdtfFixture" node f) := by
  intro t ht hs
  simp only [valueOf] at ht
  rw [show ("GdtfFixture" : String) = Node.kFixture.name from rfl, schema_dec F (ctor m) fresh Node.kFixture (by decide +kernel) node] at ht
  unfold after put at ht
  rw [if_neg (by decide), if_neg (by decide), if_pos (show Node.kFixture.name = "GdtfFixture" from rfl)] at ht
  simp only [show ("fName" = "fHasLinkedGuid") = False from by simp, if_false, if_true] at ht
  generalize unread Node.kFixture.name node (ctor m Node.kFixture.name) (readNow F Node.kFixture.reads node (ctor m Node.kFixture.name)) "fName" = v at ht
  cases v <;> simp only [renamed, dmxValue] at ht <;> first
    | (cases ht
       unfold slashes at hs
       obtain ⟨u, -, hu⟩ := List.mem_map.1 hs
       split at hu
       · exact absurd hu (by decide)
       · rename_i hne; exact hne hu)
    | (unfold result at ht; split at ht <;> cases ht)
    | cases ht

end Verif.Gdtf
