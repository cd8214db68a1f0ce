import Verif.Name.Model

/-!
# C24: names are made valid and valid names are untouched
-/

namespace Verif.Name

/-- Specification: the name characters of GDTF, by code (space, `"` to `>`, `@`, letters, `_` and the
back quote): 32 to 122 without `!` (33), `?` (63) and `[ \ ] ^` (91 to 94). -/
def Allowed (c : BitVec 16) : Prop :=
  32 ≤ c.toNat ∧ c.toNat ≤ 122 ∧ c.toNat ≠ 33 ∧ c.toNat ≠ 63 ∧ ¬ (91 ≤ c.toNat ∧ c.toNat ≤ 94)

instance (c : BitVec 16) : Decidable (Allowed c) := by unfold Allowed; infer_instance

theorem valid_iff (c : BitVec 16) : isValidNameChar c = true ↔ Allowed c := by
  have := c.isLt
  unfold isValidNameChar Allowed
  simp only [Bool.or_eq_true, Bool.and_eq_true, decide_eq_true_eq, BitVec.le_def, ← BitVec.toNat_inj,
    BitVec.toNat_ofNat]
  omega

theorem valid_eq (c : BitVec 16) : isValidNameChar c = decide (Allowed c) := by
  rw [Bool.eq_iff_iff, valid_iff, decide_eq_true_iff]

theorem cleanLoop_spec : ∀ (n : Nat) (done rest : List (BitVec 16)), rest.length ≤ n →
    ∀ fuel, n + 1 ≤ fuel → cleanLoop fuel (done ++ rest, done.length) = some (done ++ rest.filter (fun c => decide (Allowed c))) := by
  intro n
  induction n with
  | zero =>
    intro done rest hl fuel hf
    obtain ⟨f, rfl⟩ : ∃ f, fuel = f + 1 := ⟨fuel - 1, by omega⟩
    have : rest = [] := by simpa using hl
    subst this
    simp [cleanLoop, cleanStep]
  | succ n ih =>
    intro done rest hl fuel hf
    obtain ⟨f, rfl⟩ : ∃ f, fuel = f + 1 := ⟨fuel - 1, by omega⟩
    cases rest with
    | nil => simp [cleanLoop, cleanStep]
    | cons c t =>
      have hlt : done.length < (done ++ c :: t).length := by simp
      have hget : ((done ++ c :: t)[done.length]?).getD 0#16 = c := by simp
      have hlt' : t.length ≤ n := by simpa using hl
      rw [cleanLoop, cleanStep]
      simp only [hlt, if_true, hget]
      rw [valid_eq]
      by_cases ha : Allowed c
      · simp only [ha, decide_true, if_true]
        have := ih (done ++ [c]) t hlt' f (by omega)
        simp only [List.append_assoc, List.singleton_append, List.length_append, List.length_singleton] at this
        rw [this]; simp [ha]
      · simp only [ha, decide_false]
        have hd : Str.delete (done ++ c :: t) done.length 1 = done ++ t := by
          unfold Str.delete
          rw [if_pos hlt, List.take_left, ← List.drop_drop, List.drop_left]
          rfl
        simp only [hd, Bool.false_eq_true, if_false]
        rw [ih done t hlt' f (by omega)]; simp [ha]

/-- **C24.** Cleaning a name always ends and keeps exactly the allowed characters, in their order. -/
theorem C24_clean (name : List (BitVec 16)) (fuel : Nat) (hf : name.length + 1 ≤ fuel) :
    cleanName fuel name = some (name.filter (fun c => decide (Allowed c))) := by
  have := cleanLoop_spec name.length [] name (Nat.le_refl _) fuel hf
  simpa [cleanName] using this

/-- **C24**, result valid: every character of a cleaned name is allowed. -/
theorem C24_result_valid (name r : List (BitVec 16)) (fuel : Nat) (hf : name.length + 1 ≤ fuel)
    (h : cleanName fuel name = some r) : (∀ c ∈ r, Allowed c) ∧ r.Sublist name := by
  rw [C24_clean name fuel hf] at h
  cases h
  refine ⟨?_, List.filter_sublist⟩
  intro c hc
  simpa using (List.mem_filter.1 hc).2

/-- **C24**, valid names are untouched, and only those are. -/
theorem C24_untouched_iff (name : List (BitVec 16)) (fuel : Nat) (hf : name.length + 1 ≤ fuel) :
    cleanName fuel name = some name ↔ ∀ c ∈ name, Allowed c := by
  rw [C24_clean name fuel hf, Option.some.injEq, List.filter_eq_self]
  simp

/-- **C24**, cleaning twice is cleaning once. -/
theorem C24_idempotent (name r : List (BitVec 16)) (fuel : Nat) (hf : name.length + 1 ≤ fuel)
    (h : cleanName fuel name = some r) : cleanName fuel r = some r := by
  obtain ⟨h1, h2⟩ := C24_result_valid name r fuel hf h
  exact (C24_untouched_iff r fuel (by have := h2.length_le; omega)).2 h1

/-- **C24**, the dot, used as separator in references, is an allowed name character: a cleaned name may
contain dots. (See C41.) -/
theorem C24_dot_allowed : Allowed 0x2E#16 := by decide

/-- "Spot [1]!" becomes "Spot 1". -/
example : cleanName 10 [0x53#16, 0x70#16, 0x6F#16, 0x74#16, 0x20#16, 0x5B#16, 0x31#16, 0x5D#16, 0x21#16] =
    some [0x53#16, 0x70#16, 0x6F#16, 0x74#16, 0x20#16, 0x31#16] := by decide +kernel

end Verif.Name
