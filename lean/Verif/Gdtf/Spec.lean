import Verif.Gdtf.Table

/-!
# Specification: trees of objects that a program can build, and what must be left of them after reading
-/

namespace Verif.Gdtf.Spec

variable {D : Type}

/-- The contents of a member are allowed: right classes, right number. -/
def Fits (s : Slot) (k : List (Obj D)) : Prop :=
  (∀ o ∈ k, o.cls ∈ s.holds) ∧
    match s.how with
    | .many => True
    | .first => k.length ≤ 1
    | .embedded => k.length = 1

/-- A tree of objects in which every member has allowed contents. -/
inductive Tree (cs : List Class) : Obj D → Prop
  | mk (c : Class) (d : D) (ks : List (List (Obj D))) (hc : c ∈ cs) (hn : ks.length = c.slots.length)
      (hf : ∀ p ∈ c.slots.zip ks, Fits p.1 p.2) (hk : ∀ k ∈ ks, ∀ o ∈ k, Tree cs o) : Tree cs (.mk c.name d ks)

mutual
/-- The same tree with other values in the objects and without the objects of a class. -/
def change (f : String → D → D) (drop : String) : Obj D → Obj D
  | .mk cls d ks => .mk cls (f cls d) (changeAll f drop ks)

/-- All members. -/
def changeAll (f : String → D → D) (drop : String) : List (List (Obj D)) → List (List (Obj D))
  | [] => []
  | k :: ks => changeList f drop k :: changeAll f drop ks

/-- One member. -/
def changeList (f : String → D → D) (drop : String) : List (Obj D) → List (Obj D)
  | [] => []
  | o :: os => if o.cls = drop then changeList f drop os else change f drop o :: changeList f drop os
end

/-- The object at a place: the number of the member, the number in the member, and so on. -/
def Obj.at : Obj D → List (Nat × Nat) → Option (Obj D)
  | o, [] => some o
  | .mk _ _ ks, (i, j) :: p => ((ks[i]?).bind (fun k => k[j]?)).bind (fun o => Obj.at o p)

/-- The class at the place. -/
def classAt (o : Obj D) (p : List (Nat × Nat)) : Option String := (Obj.at o p).map (·.cls)

/-- The values at the place. -/
def dataAt (o : Obj D) (p : List (Nat × Nat)) : Option D := (Obj.at o p).map (fun | .mk _ d _ => d)

/-- Two names that differ at most in upper and lower case. -/
def sameName (n m : String) : Bool := n.toList.map Str.upChar == m.toList.map Str.upChar

/-- One of the nodes for the objects of a member could have the name. -/
def means (s : Slot) (n : String) : Bool := s.accepts.any (fun p => sameName n p.1)

/-- A member reacts to the name among the children of its node. -/
def hears (s : Slot) (n : String) : Bool :=
  match s.rbox with
  | none => means s n
  | some b => n == b

/-- `e'` is `e` with further nodes, at any depth, that have names no class gives a meaning to at their place. -/
inductive Noisy (slots : String → List Slot) : String → Elem → Elem → Prop
  | insert {cls n a p q} (x : Elem) (hx : ∀ s ∈ slots cls, hears s x.name = false) :
      Noisy slots cls (.mk n a (p ++ q)) (.mk n a (p ++ x :: q))
  | insertInBox {cls n a p q b ba u v} (x : Elem)
      (hx : ∀ s ∈ slots cls, s.rbox = some b → means s x.name = false) (ho : ∀ s ∈ slots cls, s.rbox ≠ some b → hears s b = false) :
      Noisy slots cls (.mk n a (p ++ .mk b ba (u ++ v) :: q)) (.mk n a (p ++ .mk b ba (u ++ x :: v) :: q))
  | deeper {cls n a p q e e'} (hn : e'.name = e.name)
      (hx : ∀ s ∈ slots cls, s.rbox = none → ∀ a ∈ s.accepts, sameName e.name a.1 → Noisy slots a.2 e e')
      (ho : ∀ s ∈ slots cls, s.rbox ≠ none → hears s e.name = false) :
      Noisy slots cls (.mk n a (p ++ e :: q)) (.mk n a (p ++ e' :: q))
  | deeperInBox {cls n a p q b ba u v e e'} (hn : e'.name = e.name)
      (hx : ∀ s ∈ slots cls, s.rbox = some b → ∀ a ∈ s.accepts, sameName e.name a.1 → Noisy slots a.2 e e')
      (ho : ∀ s ∈ slots cls, s.rbox ≠ some b → hears s b = false) :
      Noisy slots cls (.mk n a (p ++ .mk b ba (u ++ e :: v) :: q)) (.mk n a (p ++ .mk b ba (u ++ e' :: v) :: q))
  | trans {cls e e' e''} : Noisy slots cls e e' → Noisy slots cls e' e'' → Noisy slots cls e e''

end Verif.Gdtf.Spec
