import Verif.Scene.Model

/-!
The sibling pointers of the scene objects: /repo/src/SceneDataExchange.cpp `AddObject`, the functions `Create…`
and `Read…`, and the iteration of the public API
(/repo/src/Implementation/CMediaRessourceVectorImpl.cpp `GetFirstLayer`, `GetFirstChild`, `GetNextObject`).

Objects are numbers in the order of their creation, beginning with 1; 0 stands for the exchange object, whose
children are the layers.
-/

namespace Verif.Scene

/-- The members `fChildObjs`, `fNextObj` and `fInContainer` of all objects, and `fFocusPoints` with the names. -/
structure Heap where
  count : Nat := 0
  kids : Nat → List Nat := fun _ => []
  next : Nat → Option Nat := fun _ => none
  container : Nat → Option Nat := fun _ => none
  focus : List (Nat × Text) := []

/-- A member of one object is assigned. -/
def upd {β : Type} (f : Nat → β) (a : Nat) (b : β) : Nat → β := fun x => if x = a then b else f x

/-- SceneDataExchange.cpp:2468-2486 `SceneDataGroupObj::AddObject`. -/
def addObject (h : Heap) (c o : Nat) : Heap :=
  { h with
    next := (match (h.kids c).getLast? with
      | none => h.next
      | some p => upd h.next p (some o))
    kids := upd h.kids c (h.kids c ++ [o])
    container := upd h.container o (some c) }

/-- A call that adds an object. -/
inductive Op where
  /-- SceneDataExchange.cpp:3007-3050 `CreateLayerObject`, `ReadLayerObject`. -/
  | layer
  /-- `Create…` and `Read…` of the other kinds of objects, SceneDataExchange.cpp:3186-3440. -/
  | create (container : Nat)
  /-- SceneDataExchange.cpp:3321-3341 `ReadFocusPoint`. -/
  | readFocus (container : Nat) (name : Text)
  /-- SceneDataExchange.cpp:3278-3319 `CreateFocusPoint`. -/
  | createFocus (container : Nat) (name : Text)

/-- `new …` -/
def fresh (h : Heap) : Heap := { h with count := h.count + 1 }

/-- SceneDataExchange.cpp:3007-3022, 3186-3440; `CreateFocusPoint` looks for a focus point of the same name in
`fFocusPoints` and adds that one if there is one. A layer has no container. -/
def step (h : Heap) : Op → Heap
  | .layer =>
    let h' := addObject (fresh h) 0 (h.count + 1)
    { h' with container := h.container }
  | .create c => addObject (fresh h) c (h.count + 1)
  | .readFocus c n =>
    let h' := addObject (fresh h) c (h.count + 1)
    { h' with focus := h.focus ++ [(h.count + 1, n)] }
  | .createFocus c n =>
    match h.focus.find? (fun p => eqText p.2 n) with
    | some p => addObject h c p.1
    | none => addObject (fresh h) c (h.count + 1)

/-- A sequence of calls. -/
def run (h : Heap) : List Op → Heap
  | [] => h
  | o :: os => run (step h o) os

namespace Spec

/-- CMediaRessourceVectorImpl.cpp:1308-1500: asking for the first object and then again and again for the next
one gives these objects, and then the answer that there is no next object. -/
inductive Visits (next : Nat → Option Nat) : Option Nat → List Nat → Prop where
  | done : Visits next none []
  | step (o : Nat) (l : List Nat) : Visits next (next o) l → Visits next (some o) (o :: l)

/-- The container of the object that a call creates. -/
def home : Op → Nat
  | .layer => 0
  | .create c => c
  | .readFocus c _ => c
  | .createFocus c _ => c

/-- The objects created in a container by a sequence of calls, the first call creating the object `i`. -/
def created (i c : Nat) : List Op → List Nat
  | [] => []
  | o :: os => (if home o = c then [i] else []) ++ created (i + 1) c os

/-- No focus point is created with the name of one that was read before. -/
def FreshNames : List Text → List Op → Prop
  | _, [] => True
  | seen, .readFocus _ n :: os => FreshNames (seen ++ [n]) os
  | seen, .createFocus _ n :: os => (∀ m ∈ seen, eqText m n = false) ∧ FreshNames seen os
  | seen, _ :: os => FreshNames seen os

end Spec

open Spec

/-- The pointers of the objects of one container. -/
def Linked (next : Nat → Option Nat) : List Nat → Prop
  | [] => True
  | [a] => next a = none
  | a :: b :: l => next a = some b ∧ Linked next (b :: l)

theorem Linked.visits {next : Nat → Option Nat} : ∀ {l : List Nat}, Linked next l → Visits next l.head? l
  | [], _ => .done
  | [a], h => .step a [] (by rw [h]; exact .done)
  | a :: b :: l, h => .step a _ (by rw [h.1]; exact Linked.visits h.2)

theorem Linked.congr {f g : Nat → Option Nat} : ∀ {l : List Nat}, Linked f l → (∀ a ∈ l, g a = f a) → Linked g l
  | [], _, _ => trivial
  | [a], h, e => by rw [Linked, e a (by simp)]; exact h
  | a :: b :: l, h, e => ⟨by rw [e a (by simp)]; exact h.1, h.2.congr fun x hx => e x (by simp [hx])⟩

theorem Linked.snoc {f : Nat → Option Nat} {o : Nat} (ho : f o = none) : ∀ {l : List Nat}, l.Nodup → o ∉ l →
    Linked f l → Linked (match l.getLast? with | none => f | some p => upd f p (some o)) (l ++ [o])
  | [], _, _, _ => ho
  | [a], _, hn, _ => by
    refine ⟨by simp [upd], ?_⟩
    have : o ≠ a := by simpa using hn
    show upd f a (some o) o = none
    rw [upd, if_neg this, ho]
  | a :: b :: l, hd, hn, h => by
    have ih := Linked.snoc ho (List.nodup_cons.1 hd).2 (fun hm => hn (by simp [hm])) h.2
    rw [List.getLast?_cons_cons]
    refine ⟨?_, ih⟩
    cases hl : (b :: l).getLast? with
    | none => exact h.1
    | some p =>
      have hp : p ∈ b :: l := List.mem_of_getLast? hl
      have : a ≠ p := by rintro rfl; exact (List.nodup_cons.1 hd).1 hp
      show upd f p (some o) a = some b
      rw [upd, if_neg this]; exact h.1

/-- What is true after any sequence of calls. -/
structure HInv (h : Heap) : Prop where
  linked : ∀ c, Linked h.next (h.kids c)
  nodup : ∀ c, (h.kids c).Nodup
  range : ∀ c o, o ∈ h.kids c → o ≤ h.count
  apart : ∀ c d o, o ∈ h.kids c → o ∈ h.kids d → c = d
  free : ∀ o, h.count < o → h.next o = none

theorem HInv.add {h : Heap} (i : HInv h) (c : Nat) : HInv (addObject (fresh h) c (h.count + 1)) := by
  have hnew : ∀ d, h.count + 1 ∉ h.kids d := fun d hd => by have := i.range d _ hd; omega
  refine ⟨?_, ?_, ?_, ?_, ?_⟩
  · intro d
    simp only [addObject, fresh, upd]
    by_cases hd : d = c
    · subst hd
      rw [if_pos rfl]
      exact (i.linked d).snoc (i.free _ (by omega)) (i.nodup d) (hnew d)
    · rw [if_neg hd]
      cases hl : (h.kids c).getLast? with
      | none => exact i.linked d
      | some p =>
        refine (i.linked d).congr fun a ha => ?_
        have : a ≠ p := by
          rintro rfl
          exact hd (i.apart d c a ha (List.mem_of_getLast? hl))
        exact if_neg this
  · intro d
    simp only [addObject, fresh, upd]
    split
    · refine List.nodup_append.2 ⟨i.nodup c, by simp, ?_⟩
      intro a ha b hb e
      have hb' : b = h.count + 1 := by simpa using hb
      rw [e, hb'] at ha
      exact hnew c ha
    · exact i.nodup d
  · intro d o ho
    simp only [addObject, fresh, upd] at ho ⊢
    split at ho
    · rcases List.mem_append.1 ho with ho | ho
      · have := i.range c o ho; omega
      · have : o = h.count + 1 := by simpa using ho
        omega
    · have := i.range d o ho; omega
  · intro d e o hd he
    simp only [addObject, fresh, upd] at hd he
    have key : ∀ x, o ∈ (if x = c then h.kids c ++ [h.count + 1] else h.kids x) →
        (o ∈ h.kids x) ∨ (x = c ∧ o = h.count + 1) := by
      intro x hx
      split at hx
      · rename_i e; subst e
        rcases List.mem_append.1 hx with hx | hx
        · exact .inl hx
        · exact .inr ⟨rfl, by simpa using hx⟩
      · exact .inl hx
    rcases key d hd with h1 | ⟨h1, h1'⟩ <;> rcases key e he with h2 | ⟨h2, h2'⟩
    · exact i.apart d e o h1 h2
    · rw [h2'] at h1; exact absurd h1 (hnew d)
    · rw [h1'] at h2; exact absurd h2 (hnew e)
    · rw [h1, h2]
  · intro o ho
    simp only [addObject, fresh] at ho ⊢
    cases hl : (h.kids c).getLast? with
    | none => exact i.free o (by omega)
    | some p =>
      have := i.range c p (List.mem_of_getLast? hl)
      show upd h.next p (some (h.count + 1)) o = none
      rw [upd, if_neg (by omega)]
      exact i.free o (by omega)

/-- The names in `fFocusPoints`. -/
abbrev Heap.names (h : Heap) : List Text := h.focus.map (·.2)

theorem step_fresh (h : Heap) (o : Op) (os : List Op) (hf : FreshNames h.names (o :: os)) :
    ∃ h', h' = step h o ∧ FreshNames h'.names os ∧ h'.count = h.count + 1 ∧
      (h'.next = (addObject (fresh h) (home o) (h.count + 1)).next) ∧
      (h'.kids = (addObject (fresh h) (home o) (h.count + 1)).kids) ∧
      (o ≠ .layer → h'.container = upd h.container (h.count + 1) (some (home o))) ∧
      (o = .layer → h'.container = h.container) := by
  refine ⟨step h o, rfl, ?_⟩
  cases o with
  | layer => exact ⟨hf, rfl, rfl, rfl, by simp, fun _ => rfl⟩
  | create c => exact ⟨hf, rfl, rfl, rfl, fun _ => rfl, by simp⟩
  | readFocus c n =>
    refine ⟨?_, rfl, rfl, rfl, fun _ => rfl, by simp⟩
    simpa [step, Heap.names, FreshNames] using hf
  | createFocus c n =>
    have hnone : h.focus.find? (fun p => eqText p.2 n) = none := by
      rw [List.find?_eq_none]
      intro p hp
      rw [hf.1 p.2 (List.mem_map.2 ⟨p, hp, rfl⟩)]; simp
    simp only [step, hnone]
    exact ⟨hf.2, by simp [addObject, fresh], rfl, rfl, fun _ => by simp [addObject, fresh, home], by simp⟩

theorem HInv.congr {h g : Heap} (i : HInv g) (e1 : h.next = g.next) (e2 : h.kids = g.kids) (e3 : h.count = g.count) :
    HInv h := by
  obtain ⟨a, b, c, d, e⟩ := i
  exact ⟨by rw [e1, e2]; exact a, by rw [e2]; exact b, by rw [e2, e3]; exact c, by rw [e2]; exact d,
    by rw [e1, e3]; exact e⟩

theorem run_inv (os : List Op) : ∀ h : Heap, HInv h → FreshNames h.names os →
    HInv (run h os) ∧ ∀ c, (run h os).kids c = h.kids c ++ created (h.count + 1) c os := by
  induction os with
  | nil => intro h i _; exact ⟨i, by simp [run, created]⟩
  | cons o os ih =>
    intro h i hf
    obtain ⟨h', rfl, hf', ec, en, ek, -, -⟩ := step_fresh h o os hf
    have i' : HInv (step h o) := (i.add (home o)).congr en ek ec
    obtain ⟨i'', hk⟩ := ih _ i' hf'
    refine ⟨i'', fun c => ?_⟩
    rw [run, hk c, ek, ec, created]
    simp only [addObject, fresh, upd]
    by_cases hc : c = home o
    · subst hc; simp
    · rw [if_neg hc, if_neg (Ne.symm hc)]; simp

theorem inv_start : HInv {} := ⟨fun _ => trivial, by simp, by simp, by simp, by simp⟩

/-- **C42**, the iteration: after any sequence of calls that create or read layers and objects, asking for the first
object of a container (or the first layer) and then for the next object again and again visits exactly the objects
that were created in it, in the order of their creation, and then stops. Hypothesis: no focus point is created with
the name of one that was read before (see `C42_iteration_violated`). -/
theorem C42_iteration (os : List Op) (hf : FreshNames [] os) (c : Nat) :
    Visits (run {} os).next ((run {} os).kids c).head? (created 1 c os) := by
  obtain ⟨i, hk⟩ := run_inv os {} inv_start hf
  have : (run {} os).kids c = created 1 c os := by rw [hk c]; simp
  have hl := i.linked c
  rw [this] at hl ⊢
  exact hl.visits

theorem run_keeps (os : List Op) : ∀ h : Heap, FreshNames h.names os → ∀ x, x ≤ h.count →
    (run h os).container x = h.container x := by
  induction os with
  | nil => intro h _ x _; rfl
  | cons o os ih =>
    intro h hf x hx
    obtain ⟨h', rfl, hf', ec, -, -, e1, e2⟩ := step_fresh h o os hf
    rw [run, ih _ hf' x (by omega)]
    by_cases ho : o = .layer
    · rw [e2 ho]
    · rw [e1 ho, upd, if_neg (by omega)]

theorem run_container (os : List Op) : ∀ (h : Heap), FreshNames h.names os → ∀ (j : Nat) (o : Op), os[j]? = some o →
    o ≠ .layer → (run h os).container (h.count + 1 + j) = some (home o) := by
  induction os with
  | nil => intro h _ j o hj; simp at hj
  | cons o' os ih =>
    intro h hf j o hj ho
    obtain ⟨h', rfl, hf', ec, -, -, e1, -⟩ := step_fresh h o' os hf
    cases j with
    | zero =>
      have : o' = o := by simpa using hj
      subst this
      rw [run, run_keeps os _ hf' _ (by omega), e1 ho]
      simp [upd]
    | succ j =>
      rw [run, show h.count + 1 + (j + 1) = (step h o').count + 1 + j by omega]
      exact ih _ hf' j o (by simpa using hj) ho

/-- **C42**, the containers: the object created by the call number `j` has the container that was given. -/
theorem C42_container (os : List Op) (hf : FreshNames [] os) (j : Nat) (o : Op) (hj : os[j]? = some o)
    (ho : o ≠ .layer) : (run {} os).container (1 + j) = some (home o) := by
  have := run_container os {} hf j o hj ho
  simpa using this

/-- A layer, a group in it, two objects in the group with one in the layer in between, and a second layer. -/
example : created 1 2 [.layer, .create 1, .create 2, .create 1, .createFocus 2 "F".toList, .layer] = [3, 5] ∧
    created 1 0 [.layer, .create 1, .create 2, .create 1, .createFocus 2 "F".toList, .layer] = [1, 6] ∧
    FreshNames [] [.layer, .create 1, .create 2, .create 1, .createFocus 2 "F".toList, .layer] := by
  refine ⟨by decide, by decide, ?_⟩
  simp [FreshNames]

/-- If iteration from some object ever comes back to it, then it visits no finite list. -/
theorem not_visits_loop {next : Nat → Option Nat} {o : Nat} (h : next o = some o) : ∀ l, ¬ Visits next (some o) l := by
  intro l
  induction l with
  | nil => intro hv; cases hv
  | cons a l ih =>
    intro hv
    cases hv with
    | step _ _ hv' => rw [h] at hv'; exact ih hv'

/-- **C42 does not hold in full for the iteration**: reading a file that has a focus point and then creating a focus
point of the same name in the same container does not create an object; the one that was read becomes its own next
object, and asking for the next object never ends. -/
theorem C42_iteration_violated : ∃ os c, ∀ l, ¬ Visits (run {} os).next ((run {} os).kids c).head? l := by
  refine ⟨[.layer, .readFocus 1 "F".toList, .createFocus 1 "F".toList], 1, ?_⟩
  have h1 : ((run {} [.layer, .readFocus 1 "F".toList, .createFocus 1 "F".toList]).kids 1).head? = some 2 := by decide
  rw [h1]
  exact not_visits_loop (by decide)

end Verif.Scene
