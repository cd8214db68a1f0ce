import Verif.Abort.Spec

/-!
# C99: lemmas about the loops
-/

namespace Verif.Abort

theorem entries_append (d : Nat) (a b : List Ob) : entries d (a ++ b) = entries d a ++ entries d b := by
  induction a with
  | nil => simp [entries]
  | cons o os ih => simp [entries, ih]

theorem entries_one (d id : Nat) (k : List Ob) : entries d [.mk id k] = .obj d id :: entries (d + 1) k := by
  simp [entries, entry]

theorem Part.append {a b c d : List Ob} (h : Part a b) (g : Part c d) : Part (a ++ c) (b ++ d) := by
  induction h with
  | nil => simpa using g
  | skip o _ ih => exact .skip o ih
  | keep id hk _ _ ih => exact .keep id hk ih

theorem Part.none (b : List Ob) : Part [] b := by
  induction b with
  | nil => exact .nil
  | cons o _ ih => exact .skip o ih

/-- What holds for a run of a loop that starts at question `n`, ends before question `m`, gave `r` and should give `w`. -/
structure Run (cb : Answers) (n m : Nat) (r w : List Ob) : Prop where
  le : n ≤ m
  full : (∀ i, n ≤ i → i < m → cb i = false) → r = w
  part : Part r w
  pre : Sticky cb → (r = w ∨ cb m = true) ∧ ∀ d, entries d r <+: entries d w
  idle : Sticky cb → cb n = true → r = []
  size : ∀ k d, (∀ i, k ≤ i → cb i = true) → (entries d r).length ≤ k - n ∧ (entries d r).length ≤ m - n

theorem Run.nothing {cb : Answers} {n m : Nat} (w : List Ob) (h : n < m) (hc : cb n = true) : Run cb n m [] w where
  le := by omega
  full := fun g => by rw [g n (by omega) h] at hc; cases hc
  part := Part.none w
  pre := fun s => ⟨.inr (s n m (by omega) hc), fun d => ⟨entries d w, by simp [entries]⟩⟩
  idle := fun _ _ => rfl
  size := fun k d _ => by simp [entries]

/-- One more question, answered no, before a run. -/
theorem Run.ask {cb : Answers} {n m : Nat} {r w : List Ob} (h : Run cb (n + 1) m r w) (hc : cb n = false) : Run cb n m r w where
  le := by have := h.le; omega
  full := fun g => h.full (fun i a b => g i (by omega) b)
  part := h.part
  pre := h.pre
  idle := fun _ e => by rw [hc] at e; cases e
  size := fun k d g => by have := h.size k d g; omega

/-- The same for an object that is made. -/
theorem Run.make {cb : Answers} {n m id : Nat} {r w : List Ob} (h : Run cb (n + 1) m r w) (hc : cb n = false) :
    Run cb n m [.mk id r] [.mk id w] where
  le := by have := h.le; omega
  full := fun g => by rw [h.full (fun i a b => g i (by omega) b)]
  part := .keep id h.part .nil
  pre := fun s => by
    refine ⟨(h.pre s).1.imp (fun e => by rw [e]) (fun x => x), fun d => ?_⟩
    rw [entries_one, entries_one]
    exact List.prefix_cons_inj _ |>.mpr ((h.pre s).2 (d + 1))
  idle := fun _ e => by rw [hc] at e; cases e
  size := fun k d g => by
    have a := h.size k (d + 1) g
    have b := h.le
    have c : n < k := by
      apply Classical.byContradiction
      intro x
      rw [g n (by omega)] at hc
      cases hc
    rw [entries_one, List.length_cons]
    omega

theorem Run.append {cb : Answers} {n m p : Nat} {r w r' w' : List Ob} (h : Run cb n m r w) (g : Run cb m p r' w') :
    Run cb n p (r ++ r') (w ++ w') where
  le := Nat.le_trans h.le g.le
  full := fun q => by
    have a := h.le
    have b := g.le
    rw [h.full (fun i x y => q i x (by omega)), g.full (fun i x y => q i (by omega) y)]
  part := h.part.append g.part
  pre := fun s => by
    rcases (h.pre s).1 with e | e
    · subst e
      refine ⟨(g.pre s).1.imp (fun e => by rw [e]) (fun x => x), fun d => ?_⟩
      rw [entries_append, entries_append]
      exact (List.prefix_append_right_inj _).mpr ((g.pre s).2 d)
    · rw [g.idle s e, List.append_nil]
      refine ⟨.inr (s m p g.le e), fun d => ?_⟩
      rw [entries_append]
      exact ((h.pre s).2 d).trans (List.prefix_append _ _)
  idle := fun s e => by rw [h.idle s e, g.idle s (s n m h.le e)]; rfl
  size := fun k d q => by
    have a := h.size k d q
    have b := g.size k d q
    have c := h.le
    have e := g.le
    rw [entries_append, List.length_append]
    omega

theorem Run.same {cb : Answers} {n : Nat} : Run cb n n [] [] where
  le := Nat.le_refl n
  full := fun _ => rfl
  part := .nil
  pre := fun _ => ⟨.inl rfl, fun _ => List.prefix_refl _⟩
  idle := fun _ _ => rfl
  size := fun _ _ _ => by simp [entries]

mutual
theorem readObj_run (cb : Answers) : ∀ (n : Nat) (t : Nd), Run cb n (readObj cb n t).2 (readObj cb n t).1 (objOf t)
  | n, .mk id known kids => by
    rw [readObj, objOf]
    cases known with
    | false => exact Run.same
    | true =>
      simp only [if_true]
      cases hc : cb n with
      | true => exact Run.nothing _ (Nat.lt_succ_self n) hc
      | false => exact (readKids_run cb (n + 1) kids).make hc
theorem readKids_run (cb : Answers) : ∀ (n : Nat) (ts : List Nd), Run cb n (readKids cb n ts).2 (readKids cb n ts).1 (objsOf ts)
  | n, [] => by rw [readKids, objsOf]; exact Run.same
  | n, t :: ts => by
    rw [readKids, objsOf]
    cases hc : cb n with
    | true => exact Run.nothing _ (Nat.lt_succ_self n) hc
    | false => exact ((readObj_run cb (n + 1) t).append (readKids_run cb _ ts)).ask hc
end

theorem readLayers_run (cb : Answers) : ∀ (n : Nat) (ls : List Nd),
    Run cb n (readLayers cb n ls).2.1 (readLayers cb n ls).1 (objsOf ls)
  | n, [] => by rw [readLayers, objsOf]; exact Run.same
  | n, .mk id known kids :: ls => by
    rw [readLayers, objsOf, objOf]
    cases hc : cb n with
    | true => exact Run.nothing _ (Nat.lt_succ_self n) hc
    | false =>
      cases known with
      | false => exact (readLayers_run cb (n + 1) ls).ask hc
      | true => exact ((readKids_run cb (n + 1) kids).make hc).append (readLayers_run cb _ ls)

theorem readLayers_end (cb : Answers) : ∀ (n : Nat) (ls : List Nd),
    (∀ i, n ≤ i → i < (readLayers cb n ls).2.1 → cb i = false) → (readLayers cb n ls).2.2 = true
  | n, [], _ => rfl
  | n, .mk id known kids :: ls, h => by
    rw [readLayers] at h ⊢
    cases hc : cb n with
    | true => 
      simp only [hc, if_true] at h
      have := h n (Nat.le_refl n) (Nat.lt_succ_self n)
      rw [hc] at this; cases this
    | false =>
      cases known with
      | false =>
        simp only [hc, Bool.false_eq_true, if_false] at h ⊢
        exact readLayers_end cb (n + 1) ls (fun i a b => h i (by omega) b)
      | true =>
        simp only [hc, Bool.false_eq_true, if_false, if_true] at h ⊢
        have := (readKids_run cb (n + 1) kids).le
        exact readLayers_end cb _ ls (fun i a b => h i (by omega) b)

/-- The same facts for the flat lists; `e` says that the loop came to its end. -/
structure Flat (cb : Answers) (n m : Nat) (e : Bool) (r w : List Nat) : Prop where
  le : n ≤ m
  full : (∀ i, n ≤ i → i < m → cb i = false) → r = w ∧ e = true
  part : r.Sublist w
  pre : Sticky cb → (r = w ∨ cb m = true) ∧ r <+: w
  idle : Sticky cb → cb n = true → r = []
  size : ∀ k, (∀ i, k ≤ i → cb i = true) → r.length ≤ k - n ∧ r.length ≤ m - n

theorem Flat.nothing {cb : Answers} {n m : Nat} (e : Bool) (w : List Nat) (h : n < m) (hc : cb n = true) : Flat cb n m e [] w where
  le := by omega
  full := fun g => by rw [g n (by omega) h] at hc; cases hc
  part := List.nil_sublist w
  pre := fun s => ⟨.inr (s n m (by omega) hc), List.nil_prefix⟩
  idle := fun _ _ => rfl
  size := fun k _ => by simp

theorem Flat.ask {cb : Answers} {n m : Nat} {e : Bool} {r w : List Nat} (h : Flat cb (n + 1) m e r w) (hc : cb n = false) :
    Flat cb n m e r w where
  le := by have := h.le; omega
  full := fun g => h.full (fun i a b => g i (by omega) b)
  part := h.part
  pre := h.pre
  idle := fun _ e => by rw [hc] at e; cases e
  size := fun k g => by have := h.size k g; omega

theorem Flat.make {cb : Answers} {n m x : Nat} {e : Bool} {r w : List Nat} (h : Flat cb (n + 1) m e r w) (hc : cb n = false) :
    Flat cb n m e (x :: r) (x :: w) where
  le := by have := h.le; omega
  full := fun g => by
    have := h.full (fun i a b => g i (by omega) b)
    exact ⟨by rw [this.1], this.2⟩
  part := h.part.cons_cons x
  pre := fun s => ⟨(h.pre s).1.imp (fun e => by rw [e]) id, (List.prefix_cons_inj x).mpr (h.pre s).2⟩
  idle := fun _ e => by rw [hc] at e; cases e
  size := fun k g => by
    have a := h.size k g
    have b := h.le
    have c : n < k := by
      apply Classical.byContradiction
      intro x
      rw [g n (by omega)] at hc
      cases hc
    rw [List.length_cons]
    omega

theorem Flat.lose {cb : Answers} {n m x : Nat} {e : Bool} {r w : List Nat} (h : Flat cb (n + 1) m e r w) (hc : cb n = true) :
    Flat cb n m e r (x :: w) where
  le := by have := h.le; omega
  full := fun g => by
    have := g n (Nat.le_refl n) h.le
    rw [hc] at this; cases this
  part := h.part.cons x
  pre := fun s => by
    have := h.idle s (s n (n + 1) (by omega) hc)
    subst this
    exact ⟨.inr (s n m (by have := h.le; omega) hc), List.nil_prefix⟩
  idle := fun s _ => h.idle s (s n (n + 1) (by omega) hc)
  size := fun k g => by have := h.size k g; omega

theorem readData_flat (cb : Answers) : ∀ (n : Nat) (ds : List Nat), Flat cb n (readData cb n ds).2 true (readData cb n ds).1 ds
  | n, [] => ⟨Nat.le_refl n, fun _ => ⟨rfl, rfl⟩, .slnil, fun _ => ⟨.inl rfl, List.prefix_refl _⟩, fun _ _ => rfl, fun _ _ => by simp [readData]⟩
  | n, d :: ds => by
    rw [readData]
    cases hc : cb n with
    | true => exact (readData_flat cb (n + 1) ds).lose hc
    | false => exact (readData_flat cb (n + 1) ds).make hc

theorem readAux_flat (cb : Answers) : ∀ (n : Nat) (as : List AuxNd),
    Flat cb n (readAux cb n as).2.1 (readAux cb n as).2.2 (readAux cb n as).1 ((as.filter (·.known)).map (·.id))
  | n, [] => ⟨Nat.le_refl n, fun _ => ⟨rfl, rfl⟩, .slnil, fun _ => ⟨.inl rfl, List.prefix_refl _⟩, fun _ _ => rfl, fun _ _ => by simp [readAux]⟩
  | n, ⟨id, known⟩ :: as => by
    rw [readAux]
    cases hc : cb n with
    | true => exact Flat.nothing _ _ (Nat.lt_succ_self n) hc
    | false =>
      cases known with
      | false => exact (readAux_flat cb (n + 1) as).ask hc
      | true =>
        simp only [Bool.false_eq_true, if_false, if_true]
        cases hd : cb (n + 1) with
        | true => exact ((readAux_flat cb (n + 2) as).lose hd).ask hc
        | false => exact ((readAux_flat cb (n + 2) as).make hd).ask hc

/-- The auxiliary objects that the file has. -/
theorem readAuxNode_flat (cb : Answers) (n : Nat) : ∀ (o : Option (List AuxNd)),
    Flat cb n (readAuxNode cb n o).2.1 (readAuxNode cb n o).2.2 (readAuxNode cb n o).1
      (auxOf o)
  | none => ⟨Nat.le_refl n, fun _ => ⟨rfl, rfl⟩, .slnil, fun _ => ⟨.inl rfl, List.prefix_refl _⟩, fun _ _ => rfl,
      fun _ _ => by simp [readAuxNode]⟩
  | some as => by
    rw [readAuxNode]
    cases hc : cb n with
    | true => exact Flat.nothing _ _ (Nat.lt_succ_self n) hc
    | false => exact (readAux_flat cb (n + 1) as).ask hc

theorem readLayersNode_run (cb : Answers) (n : Nat) : ∀ (o : Option (List Nd)),
    Run cb n (readLayersNode cb n o).2.1 (readLayersNode cb n o).1 (layersOf o)
  | none => Run.same
  | some ls => by
    rw [readLayersNode]
    cases hc : cb n with
    | true => exact Run.nothing _ (Nat.lt_succ_self n) hc
    | false => exact (readLayers_run cb (n + 1) ls).ask hc

theorem readLayersNode_end (cb : Answers) (n : Nat) : ∀ (o : Option (List Nd)),
    (∀ i, n ≤ i → i < (readLayersNode cb n o).2.1 → cb i = false) → (readLayersNode cb n o).2.2 = true
  | none, _ => rfl
  | some ls, h => by
    rw [readLayersNode] at h ⊢
    cases hc : cb n with
    | true =>
      simp only [hc, if_true] at h
      have := h n (Nat.le_refl n) (Nat.lt_succ_self n)
      rw [hc] at this; cases this
    | false =>
      simp only [hc, Bool.false_eq_true, if_false] at h ⊢
      exact readLayers_end cb (n + 1) ls (fun i a b => h i (by omega) b)

/-- A loop over the auxiliary data that did not come to its end was told to stop. -/
theorem readAux_stop (cb : Answers) (s : Sticky cb) : ∀ (n : Nat) (as : List AuxNd),
    (readAux cb n as).2.2 = false → cb (readAux cb n as).2.1 = true
  | n, [], h => by simp [readAux] at h
  | n, ⟨id, known⟩ :: as, h => by
    rw [readAux] at h ⊢
    cases hc : cb n with
    | true => simpa using s n (n + 1) (by omega) hc
    | false =>
      cases known with
      | false =>
        simp only [hc, Bool.false_eq_true, if_false] at h ⊢
        exact readAux_stop cb s _ as h
      | true =>
        cases hd : cb (n + 1) with
        | true =>
          simp only [hc, hd, Bool.false_eq_true, if_false, if_true] at h ⊢
          exact readAux_stop cb s _ as h
        | false =>
          simp only [hc, hd, Bool.false_eq_true, if_false, if_true] at h ⊢
          exact readAux_stop cb s _ as h

end Verif.Abort
