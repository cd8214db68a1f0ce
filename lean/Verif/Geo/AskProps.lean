import Verif.Geo.AskModel

/-!
# C100: cancelling the reading of files has no effect on questions about a fixture
-/

namespace Verif.Geo

/-- What a loop gives when it is asked nothing (`w`), and when it is asked. -/
def Agrees (r : Except Stop (List Nat × Nat)) (w : Except Unit (List Nat)) : Prop :=
  match r with
  | .error .aborted => True
  | .error .bad => w = .error ()
  | .ok l => w = .ok l.1

/-- Nobody says yes. -/
def Never (cb : Answers) : Prop := ∀ n, cb n = false

theorem ask_never {cb : Answers} (h : Never cb) (n k : Nat) : ask cb n k = .ok (n + k) := by
  unfold ask
  rw [if_neg]
  simp [h _]

theorem directAsked_agrees (cb : Answers) (n : Nat) (chans : List Chan) (b : Int) (r : Ref) (tree : List Geo) :
    Agrees (directAsked cb n chans b r tree) (directAddresses chans b r tree) ∧
    (Never cb → directAsked cb n chans b r tree ≠ .error .aborted) := by
  unfold directAsked directAddresses
  split
  · cases r.breaks[(refBreaks chans tree).idxOf b]? with
    | none => exact ⟨rfl, fun _ => by simp⟩
    | some br =>
      cases h : ask cb n (tree.length * chans.length) with
      | error e =>
        have he : e = .aborted := by
          unfold ask at h
          split at h <;> cases h
          rfl
        subst he
        simp only
        exact ⟨trivial, fun g => by rw [ask_never g] at h; cases h⟩
      | ok m =>
        simp only
        exact ⟨rfl, fun _ => by simp [bind, Except.bind]⟩
  · exact ⟨rfl, fun _ => by simp⟩

theorem ask_error {cb : Answers} {n k : Nat} {e : Stop} (h : ask cb n k = .error e) : e = .aborted ∧ ¬ Never cb := by
  constructor
  · unfold ask at h
    split at h <;> cases h
    rfl
  · intro g
    rw [ask_never g] at h
    cases h

theorem refAsked_agrees (cb : Answers) (n : Nat) (heap : Nat → Option Geo) (chans : List Chan) (b : Int) (r : Ref) :
    Agrees (refAsked cb n heap chans b r) (refAddresses heap chans b r) ∧
    (Never cb → refAsked cb n heap chans b r ≠ .error .aborted) := by
  unfold refAsked refAddresses
  simp only [bind, Except.bind]
  cases h : ask cb n ((treeOf (r.linked.bind heap)).length * chans.length) with
  | error e =>
    obtain ⟨rfl, g⟩ := ask_error h
    exact ⟨trivial, fun k => absurd k g⟩
  | ok m =>
    have hd := directAsked_agrees cb m chans b r (treeOf (r.linked.bind heap))
    simp only
    cases hx : directAsked cb m chans b r (treeOf (r.linked.bind heap)) with
    | error e =>
      rw [hx] at hd
      cases e with
      | aborted => exact ⟨trivial, fun k => absurd rfl (hd.2 k)⟩
      | bad =>
        have : directAddresses chans b r (treeOf (r.linked.bind heap)) = .error () := hd.1
        rw [this]
        exact ⟨rfl, fun _ => by simp⟩
    | ok d =>
      rw [hx] at hd
      have : directAddresses chans b r (treeOf (r.linked.bind heap)) = .ok d.1 := hd.1
      rw [this]
      simp only
      split
      · cases r.breaks.getLast? with
        | none => exact ⟨rfl, fun _ => by simp⟩
        | some br =>
          simp only
          by_cases hbr : br.brk = b
          · simp only [if_pos hbr]
            cases h2 : ask cb d.2 ((treeOf (r.linked.bind heap)).length * chans.length) with
            | error e =>
              obtain ⟨rfl, g⟩ := ask_error h2
              exact ⟨trivial, fun k => absurd k g⟩
            | ok m => exact ⟨rfl, fun _ => by simp⟩
          · simp only [if_neg hbr]
            exact ⟨rfl, fun _ => by simp⟩
      · exact ⟨rfl, fun _ => by simp⟩

theorem allAsked_agrees (cb : Answers) (heap : Nat → Option Geo) (chans : List Chan) (b : Int) : ∀ (n : Nat) (t : List Geo),
    Agrees (allAsked cb heap chans b n t) (allAddresses heap chans b t) ∧
    (Never cb → allAsked cb heap chans b n t ≠ .error .aborted)
  | n, [] => ⟨rfl, fun _ => by simp [allAsked]⟩
  | n, g :: t => by
    rw [allAsked, allAddresses]
    simp only [bind, Except.bind]
    cases h : ask cb n chans.length with
    | error e =>
      obtain ⟨rfl, g⟩ := ask_error h
      exact ⟨trivial, fun k => absurd k g⟩
    | ok m =>
      simp only
      have hl : Agrees (linkedAsked cb m heap chans b g.ref) (linkedAddresses heap chans b g.ref) ∧
          (Never cb → linkedAsked cb m heap chans b g.ref ≠ .error .aborted) := by
        cases g.ref with
        | none => exact ⟨rfl, fun _ => by simp [linkedAsked]⟩
        | some r => exact refAsked_agrees cb m heap chans b r
      cases hx : linkedAsked cb m heap chans b g.ref with
      | error e =>
        rw [hx] at hl
        cases e with
        | aborted => exact ⟨trivial, fun k => absurd rfl (hl.2 k)⟩
        | bad =>
          have : linkedAddresses heap chans b g.ref = .error () := hl.1
          rw [this]
          exact ⟨rfl, fun _ => by simp⟩
      | ok d =>
        rw [hx] at hl
        have : linkedAddresses heap chans b g.ref = .ok d.1 := hl.1
        rw [this]
        simp only
        have hr := allAsked_agrees cb heap chans b d.2 t
        cases hy : allAsked cb heap chans b d.2 t with
        | error e =>
          rw [hy] at hr
          cases e with
          | aborted => exact ⟨trivial, fun k => absurd rfl (hr.2 k)⟩
          | bad =>
            have : allAddresses heap chans b t = .error () := hr.1
            rw [this]
            exact ⟨rfl, fun _ => by simp⟩
        | ok d' =>
          rw [hy] at hr
          have : allAddresses heap chans b t = .ok d'.1 := hr.1
          rw [this]
          exact ⟨rfl, fun _ => by simp⟩

/-- As long as the registered function says no (or none is registered), the footprint is the one of C28. -/
theorem C100_no_partial (cb : Answers) (h : Never cb) (n : Nat) (heap : Nat → Option Geo) (fuel : Nat) (root : Option Geo)
    (chans : List Chan) (b : Nat) : footprintAsked cb n heap fuel root chans b = footprint heap fuel root chans b := by
  unfold footprintAsked footprint
  have ha := allAsked_agrees cb heap chans b n (treeOf root)
  rcases breakArray heap fuel root chans with _ | _ | breaks
  · rfl
  · rfl
  · simp only
    split
    · rfl
    · cases hx : allAsked cb heap chans b n (treeOf root) with
      | error e =>
        rw [hx] at ha
        cases e with
        | aborted => exact absurd rfl (ha.2 h)
        | bad =>
          have : allAddresses heap chans b (treeOf root) = .error () := ha.1
          rw [this]
      | ok l =>
        rw [hx] at ha
        have : allAddresses heap chans b (treeOf root) = .ok l.1 := ha.1
        rw [this]

/-- Whatever the function says, the footprint is the one of C28 or 0. -/
theorem C100_or_zero_partial (cb : Answers) (n : Nat) (heap : Nat → Option Geo) (fuel : Nat) (root : Option Geo)
    (chans : List Chan) (b : Nat) : footprintAsked cb n heap fuel root chans b = footprint heap fuel root chans b ∨
      footprintAsked cb n heap fuel root chans b = some (.ok 0) := by
  unfold footprintAsked footprint
  have ha := allAsked_agrees cb heap chans b n (treeOf root)
  rcases breakArray heap fuel root chans with _ | _ | breaks
  · exact .inl rfl
  · exact .inl rfl
  · simp only
    split
    · exact .inl rfl
    · cases hx : allAsked cb heap chans b n (treeOf root) with
      | error e =>
        rw [hx] at ha
        cases e with
        | aborted => exact .inr rfl
        | bad =>
          have : allAddresses heap chans b (treeOf root) = .error () := ha.1
          rw [this]
          exact .inl rfl
      | ok l =>
        rw [hx] at ha
        have : allAddresses heap chans b (treeOf root) = .ok l.1 := ha.1
        rw [this]
        exact .inl rfl

/-- Violated: after the reading of a file was cancelled (the function says yes, and it cannot be taken away: C99_remove_violated), the
footprint of every break of every mode with a geometry is 0, for all fixtures, also for those that were read completely before; the call
reports no error.  `n` questions were asked before, and all later answers are yes. -/
theorem C100_cancelled_violated (cb : Answers) (n : Nat) (h : ∀ i, n ≤ i → cb i = true) (heap : Nat → Option Geo) (fuel : Nat) (g : Geo)
    (c : Chan) (chans : List Chan) (b k : Nat) (hk : footprint heap fuel (some g) (c :: chans) b = some (.ok k)) :
    footprintAsked cb n heap fuel (some g) (c :: chans) b = some (.ok 0) := by
  unfold footprintAsked
  unfold footprint at hk
  cases hb : breakArray heap fuel (some g) (c :: chans) with
  | none => rw [hb] at hk; cases hk
  | some r =>
    cases r with
    | error e => rw [hb] at hk; cases hk
    | ok breaks =>
      simp only
      split
      · rfl
      · have ht : treeOf (some g) = g :: walk (g.kids.reverse ++ []) := by
          rw [treeOf, walk]
        have ha : ask cb n (c :: chans).length = .error .aborted := by
          unfold ask
          rw [if_pos]
          rw [List.any_eq_true]
          exact ⟨0, by simp, h _ (Nat.le_add_right n 0)⟩
        rw [ht, allAsked, ha]
        rfl

/-- A geometry, and a channel of 16 bits at the addresses 1 and 2. -/
def askRoot : Geo := .node 1 none []
def askChans : List Chan := [⟨some 1, 1, 1, 2, 0, 0⟩]

theorem ask_plain : footprint (fun _ => none) 5 (some askRoot) askChans 1 = some (.ok 2) := by
  have hb : breakArray (fun _ => none) 5 (some askRoot) askChans = some (.ok [1]) := rfl
  have ht : treeOf (some askRoot) = [askRoot] := by rw [treeOf, walk]; simp [askRoot, Geo.kids, walk]
  unfold footprint
  rw [hb, ht]
  rfl

example : footprintAsked (fun _ => true) 0 (fun _ => none) 5 (some askRoot) askChans 1 = some (.ok 0) ∧
    footprintAsked (fun _ => false) 0 (fun _ => none) 5 (some askRoot) askChans 1 = some (.ok 2) :=
  ⟨C100_cancelled_violated _ 0 (fun _ _ => rfl) _ _ _ _ [] 1 2 ask_plain,
   (C100_no_partial _ (fun _ => rfl) 0 _ _ _ _ _).trans ask_plain⟩

end Verif.Geo
