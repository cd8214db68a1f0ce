import Verif.Geo.Model

/-!
# Specification: which addresses and breaks a DMX mode uses
-/

namespace Verif.Geo.Spec

/-- `g` is an object of the tree below (and including) `root`. -/
inductive InTree : Geo → Geo → Prop where
  | self (g : Geo) : InTree g g
  | kid {root k g : Geo} : k ∈ root.kids → InTree k g → InTree root g

/-- `g` belongs to the tree below `root` or can be reached from it through geometry references. -/
inductive Reaches (heap : Nat → Option Geo) : Geo → Geo → Prop where
  | self (g : Geo) : Reaches heap g g
  | kid {root k g : Geo} : k ∈ root.kids → Reaches heap k g → Reaches heap root g
  | link {root t g : Geo} {r : Ref} {i : Nat} : root.ref = some r → r.linked = some i → heap i = some t →
      Reaches heap t g → Reaches heap root g

/-- The addresses of a channel inside its geometry: the leading used ones of coarse, fine, ultra and uber. -/
def bytes (c : Chan) : List Nat := [c.coarse, c.fine, c.ultra, c.uber].takeWhile (fun x => decide (x ≠ 0))

/-- Address `a` is used in break `b` of the mode with the geometry `root`. -/
inductive Uses (heap : Nat → Option Geo) (root : Geo) (chans : List Chan) (b : Int) : Nat → Prop where
  /-- A channel of a geometry in the tree of the mode. -/
  | own {g : Geo} {c : Chan} {x : Nat} : InTree root g → c ∈ chans → c.geom = some g.id → c.brk = b → x ∈ bytes c →
      Uses heap root chans b x
  /-- A channel of a geometry that is placed by a geometry reference: its addresses start at the address the reference
  gives for the break. -/
  | placed {g t g' : Geo} {c : Chan} {x i : Nat} {r : Ref} {br : Brk} : Reaches heap root g → g.ref = some r →
      r.linked = some i → heap i = some t → InTree t g' → c ∈ chans → c.geom = some g'.id → c.brk = b → b ≠ 0 →
      r.breaks.find? (fun br => decide (br.brk = b)) = some br → x ∈ bytes c → Uses heap root chans b (x + (br.address - 1))
  /-- The same for a channel that takes its break from the reference: the last break of the reference counts. -/
  | overwritten {g t g' : Geo} {c : Chan} {x i : Nat} {r : Ref} {br : Brk} : Reaches heap root g → g.ref = some r →
      r.linked = some i → heap i = some t → InTree t g' → c ∈ chans → c.geom = some g'.id → c.brk = 0 →
      r.breaks.getLast? = some br → br.brk = b → x ∈ bytes c → Uses heap root chans b (x + (br.address - 1))

/-- `n` is the size of the smallest block of addresses with every address that satisfies `P`. -/
def SmallestBlock (P : Nat → Prop) (n : Nat) : Prop :=
  ∃ lo, 1 ≤ n ∧ P lo ∧ P (lo + n - 1) ∧ ∀ a, P a → lo ≤ a ∧ a ≤ lo + n - 1

/-- The break is used by a channel of the tree with its own break. -/
def UsedInTree (t : Geo) (chans : List Chan) (x : Int) : Prop :=
  x ≠ 0 ∧ ∃ g c, InTree t g ∧ c ∈ chans ∧ c.geom = some g.id ∧ c.brk = x

/-- The reference lists the breaks the referenced tree uses in ascending order (possibly followed by others), has a
break if a channel wants to take over the last one, and addresses starting at 1. -/
structure Ordered (t : Geo) (chans : List Chan) (r : Ref) : Prop where
  order : ∃ used rest, r.breaks.map (·.brk) = used ++ rest ∧ used.Pairwise (· < ·) ∧ ∀ x, x ∈ used ↔ UsedInTree t chans x
  last : (∃ g c, InTree t g ∧ c ∈ chans ∧ c.geom = some g.id ∧ c.brk = 0) → r.breaks ≠ []
  positive : ∀ br ∈ r.breaks, 1 ≤ br.address

end Verif.Geo.Spec
