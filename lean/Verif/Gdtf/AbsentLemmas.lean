import Verif.Gdtf.AbsentSpec
import Verif.Gdtf.ValueMore

/-!
# Lemmas for C85: converters and missing attributes
-/

namespace Verif.Gdtf

open Spec
open Verif.Lookup (Txt)
open Verif.Real Verif.Text Verif.Dmx Verif.Enum
open Verif.Node (Item Kind kinds getAttr)

/-! ### Converters -/

theorem dec_float (F G : Fl) (cv : Cv) (old : Val) : dec F cv none old = dec G cv none old := by
  cases cv <;> cases old <;> rfl

theorem dec_empty (F : Fl) (cv : Cv) (old : Val) (h : cv ≠ .text) : dec F cv (some []) old = dec F cv none old := by
  cases cv <;> first | exact absurd rfl h | (cases old <;> rfl)

/-- The converter of a member that is not initialised. -/
def Raw.cv : Raw → Cv
  | .real => .real
  | .size => .int
  | .u32 => .int
  | .point => .point
  | .flag => .flag
  | .truss => .truss
  | .section_ => .section_
  | .support => .support

/-- The converter leaves the member alone if there is no text. -/
def Raw.lasting : Raw → Bool
  | .real => true
  | .size => true
  | .u32 => true
  | _ => false

theorem run_known {E : Type} (r : Reader E) (e : E) (h : r.unknown = some e) (s : List Char) (a b : E) : (r.run s a).val = (r.run s b).val := by
  unfold Reader.run
  split
  · rfl
  · split
    · rfl
    · simp [h]

theorem raw_same (F : Fl) (r : Raw) (h : r.lasting = false) (t : Option Txt) (m m' : Memory) (cls f : String) :
    dec F r.cv t (r.val m cls f) = dec F r.cv t (r.val m' cls f) := by
  cases r with
  | real => cases h
  | size => cases h
  | u32 => cases h
  | point => rfl
  | flag => rfl
  | truss => exact congrArg Val.truss (run_known readStructureType _ rfl _ _ _)
  | section_ => exact congrArg Val.section_ (run_known readCrossSectionType _ rfl _ _ _)
  | support => exact congrArg Val.support (run_known readSupportType _ rfl _ _ _)

theorem raw_given (F : Fl) (r : Raw) (t : Txt) (ht : t ≠ []) (m m' : Memory) (cls f : String) :
    dec F r.cv (some t) (r.val m cls f) = dec F r.cv (some t) (r.val m' cls f) := by
  by_cases hl : r.lasting = false
  · exact raw_same F r hl _ m m' cls f
  have hs : toChars t ≠ [] := by
    unfold toChars
    intro e
    exact ht (List.map_eq_nil_iff.1 e)
  cases r with
  | real =>
    simp only [Raw.cv, Raw.val, dec, Option.getD_some]
    rw [if_neg hs, if_neg hs]
  | size =>
    simp only [Raw.cv, Raw.val, dec, Option.getD_some, readInt, readUnsigned]
    rw [if_neg hs, if_neg hs]
  | u32 =>
    simp only [Raw.cv, Raw.val, dec, Option.getD_some, readInt, readUnsigned]
    rw [if_neg hs, if_neg hs]
  | point => exact absurd rfl hl
  | flag => exact absurd rfl hl
  | truss => exact absurd rfl hl
  | section_ => exact absurd rfl hl
  | support => exact absurd rfl hl

theorem raw_gone (F : Fl) (r : Raw) (h : r.lasting = true) (m : Memory) (cls f : String) : dec F r.cv none (r.val m cls f) = r.val m cls f := by
  cases r <;> first | rfl | cases h

/-! ### Members -/

/-- A member that is initialised. -/
theorem ctor_made (m : Memory) (cls f : String) (h : unset.find? (fun p => p.1 == (cls, f)) = none) : ctor m cls f = made cls f := by
  unfold ctor
  rw [h]

theorem ctor_raw (m : Memory) (cls f : String) (p : (String × String) × Raw) (h : unset.find? (fun p => p.1 == (cls, f)) = some p) :
    ctor m cls f = p.2.val m cls f := by
  unfold ctor
  rw [h]

/-- A memory full of zeros. -/
def zeros : Memory := ⟨fun _ _ => zero, fun _ _ => 0, .cCenterLineBased, .cTrussFramework, .cRope⟩

/-- A statement is executed, or it is not. -/
theorem readNow_either (F : Fl) (k : Kind) (hk : k ∈ kinds) (node : Attrs) (o : Members) (j : Item) (hj : j ∈ k.reads) :
    readNow F k.reads node o j.field = (conv F).dec j.codec (getAttr node j.attr) (o j.field) ∨
      (j.guard ≠ .always ∧ readNow F k.reads node o j.field = o j.field) := by
  by_cases hg : j.guard = .always
  · exact Or.inl (readNow_mem F k hk node o j hj hg)
  have ht := Node.table_read k hk
  unfold Node.readOk at ht
  rw [Bool.and_eq_true, decide_eq_true_iff] at ht
  obtain ⟨pre, post, hpp⟩ := List.append_of_mem hj
  have hp := ht.1
  rw [hpp] at hp
  by_cases hh : j.guard.holds (cond (readNow F pre node o)) = true
  · left
    have := readNow_field F node pre post j o hp hh
    rwa [← hpp] at this
  · right
    refine ⟨hg, ?_⟩
    obtain ⟨h1, h2, h3⟩ := List.pairwise_append.1 hp
    rw [hpp, readNow_append, show j :: post = [j] ++ post from rfl, readNow_append,
      readNow_other F node j.field post _ (fun i hi => ((List.pairwise_cons.1 h2).1 i hi).symm)]
    have hone : readNow F [j] node (readNow F pre node o) = readNow F pre node o := by
      unfold readNow at hh ⊢
      rw [List.foldl_cons, List.foldl_nil, if_neg hh]
    rw [hone, readNow_other F node j.field pre o (fun i hi => h3 i hi j (List.mem_cons_self ..))]

/-- The converter of the member can be skipped. -/
def skipped (cls f : String) : Bool := skips.any (fun s => s.1 == cls && s.2.2 == f)

/-- The value without the attribute, if the converter is called. -/
def without (k : Kind) (j : Item) : Val := dmxValue ieee 2 ((conv ieee).dec j.codec none (ctor zeros k.name j.field))

/-- A value that is not converted later. -/
def final : Val → Bool
  | .raw _ => false
  | .rawHigh _ => false
  | _ => true

theorem table_final : ∀ k ∈ kinds, ∀ j ∈ k.reads, final (made k.name j.field) = true := by decide +kernel

theorem final_ctor (m : Memory) (k : Kind) (hk : k ∈ kinds) (j : Item) (hj : j ∈ k.reads) : final (ctor m k.name j.field) = true := by
  unfold ctor
  split
  · rename_i p _
    cases p.2 <;> rfl
  · exact table_final k hk j hj

theorem dmx_final (F : Fl) (n : Nat) (v : Val) (h : final v = true) : dmxValue F n v = v := by
  cases v <;> first | rfl | cases h

theorem dmx_dec (F : Fl) (n : Nat) (cv : Cv) (v : Val) (h : final v = true) :
    dmxValue F n (dec F cv none v) = dmxValue ieee 2 (dec ieee cv none v) := by
  cases v <;> first | (exact absurd h Bool.false_ne_true) | (cases cv <;> rfl) | (rename_i w i; cases w <;> cases cv <;> rfl)

theorem table_absent_cv : ∀ k ∈ kinds, ∀ j ∈ k.reads, j.codec ≠ .text → (match cvOf j.codec with
    | some cv => cv != .text
    | none => false) = true := by decide +kernel

theorem table_unset : ∀ k ∈ kinds, ∀ j ∈ k.reads, (match unset.find? (fun p => p.1 == (k.name, j.field)) with
    | some p => cvOf j.codec == some p.2.cv && decide (j.guard = .always) && !skipped k.name j.field
    | none => true) = true := by decide +kernel

/-- The values do not depend on the memory, unless they are left alone. -/
theorem gone_same (F : Fl) (m m' : Memory) (k : Kind) (hk : k ∈ kinds) (j : Item) (hj : j ∈ k.reads) (t : Option Txt)
    (h : ∀ p, unset.find? (fun p => p.1 == (k.name, j.field)) = some p → p.2.lasting = true → ∃ u, t = some u ∧ u ≠ []) :
    (conv F).dec j.codec t (ctor m k.name j.field) = (conv F).dec j.codec t (ctor m' k.name j.field) := by
  have hu := table_unset k hk j hj
  cases hf : unset.find? (fun p => p.1 == (k.name, j.field)) with
  | none => rw [ctor_made m _ _ hf, ctor_made m' _ _ hf]
  | some p =>
    rw [hf] at hu
    simp only [Bool.and_eq_true, beq_iff_eq] at hu
    rw [ctor_raw m _ _ p hf, ctor_raw m' _ _ p hf]
    simp only [conv, hu.1.1]
    cases hl : p.2.lasting with
    | false => exact raw_same F p.2 hl t m m' _ _
    | true =>
      obtain ⟨u, rfl, hne⟩ := h p hf hl
      exact raw_given F p.2 u hne m m' _ _

end Verif.Gdtf
