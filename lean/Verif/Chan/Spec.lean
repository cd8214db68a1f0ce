import Verif.Basic

/-!
# Specification for channel sets and channel functions
-/

namespace Verif.Chan.Spec

/-- The ranges cover `a … b` without gap or overlap, in order. -/
def Tiles : Nat → Nat → List (Nat × Nat) → Prop
  | a, b, [] => a = b + 1
  | a, b, r :: t => r.1 = a ∧ r.1 ≤ r.2 ∧ r.2 ≤ b ∧ Tiles (r.2 + 1) b t

/-- How many of the ranges contain the value. -/
def containing (v : Nat) (l : List (Nat × Nat)) : Nat := (l.filter (fun r => decide (r.1 ≤ v ∧ v ≤ r.2))).length

/-- The nodes whose start exceeds every start before them; `seen` are the starts before the list. -/
def records {ν : Type} : List Nat → List (ν × Nat) → List (ν × Nat)
  | _, [] => []
  | seen, x :: t => if ∀ y ∈ seen, y < x.2 then x :: records (x.2 :: seen) t else records (x.2 :: seen) t

theorem tiles_outside {l : List (Nat × Nat)} : ∀ {a b v : Nat}, Tiles a b l → v < a ∨ b < v → containing v l = 0 := by
  induction l with
  | nil => intro a b v _ _; rfl
  | cons r t ih =>
    intro a b v h hv
    obtain ⟨h1, h2, h3, h4⟩ := h
    have := ih h4 (v := v) (by omega)
    rw [containing, List.filter_cons, if_neg (by simp; omega)]
    exact this

/-- In a tiling every value of the whole range is in exactly one of the ranges. -/
theorem tiles_once {l : List (Nat × Nat)} : ∀ {a b v : Nat}, Tiles a b l → a ≤ v → v ≤ b → containing v l = 1 := by
  induction l with
  | nil => intro a b v h h1 h2; rw [Tiles] at h; omega
  | cons r t ih =>
    intro a b v h hv1 hv2
    obtain ⟨h1, h2, h3, h4⟩ := h
    rw [containing, List.filter_cons]
    by_cases hv : v ≤ r.2
    · have := tiles_outside h4 (v := v) (.inl (by omega))
      rw [containing] at this
      rw [if_pos (by simp; omega), List.length_cons, this]
    · rw [if_neg (by simp; omega)]
      exact ih h4 (by omega) hv2

theorem tiles_append {l1 l2 : List (Nat × Nat)} : ∀ {a m b : Nat}, Tiles a m l1 → Tiles (m + 1) b l2 → m ≤ b →
    Tiles a b (l1 ++ l2) := by
  induction l1 with
  | nil => intro a m b h1 h2 _; rw [Tiles] at h1; rw [h1]; exact h2
  | cons r t ih =>
    intro a m b h1 h2 hm
    obtain ⟨g1, g2, g3, g4⟩ := h1
    exact ⟨g1, g2, by omega, ih g4 h2 hm⟩

end Verif.Chan.Spec
