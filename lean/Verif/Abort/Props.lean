import Verif.Abort.Lemmas

/-!
# C99: cancelling the reading of an MVR file
-/

namespace Verif.Abort

/-- A file with a user data node, a position, and two layers: a truss with a fixture in it and a fixture, and a support. -/
def exFile : File :=
  ⟨[7], some ⟨some [⟨8, true⟩, ⟨9, false⟩],
    some [.mk 1 true [.mk 2 true [.mk 3 true []], .mk 4 true []], .mk 5 true [.mk 6 true []]]⟩⟩

/-- Wants to stop from question `k` on. -/
def from' (k : Nat) : Answers := fun n => decide (k ≤ n)

theorem from'_sticky (k : Nat) : Sticky (from' k) := by
  intro n m h e
  simp only [from', decide_eq_true_eq] at e ⊢
  omega

/-- Wants to stop at question `k` only. -/
def once (k : Nat) : Answers := fun n => decide (n = k)

theorem whole_data (f : File) : (whole f).data = f.data := rfl

/-- Without a wish to stop, the document is what it is without a function: everything the file says, with its links. -/
theorem C99_never_partial (cb : Answers) (f : File) (h : ∀ i, i < (read cb f).2 → cb i = false) :
    (read cb f).1 = whole f := by
  obtain ⟨data, scene⟩ := f
  have hd := readData_flat cb 0 data
  cases scene with
  | none =>
    simp only [read, whole] at h ⊢
    rw [(hd.full (fun i _ b => h i b)).1]
  | some s =>
    obtain ⟨aux, layers⟩ := s
    simp only [read] at h ⊢
    have ha := readAuxNode_flat cb ((readData cb 0 data).2 + 1) aux
    have hl := readLayersNode_run cb (readAuxNode cb ((readData cb 0 data).2 + 1) aux).2.1 layers
    have he := readLayersNode_end cb (readAuxNode cb ((readData cb 0 data).2 + 1) aux).2.1 layers
    cases hc : cb (readData cb 0 data).2 with
    | true =>
      simp only [hc, if_true] at h
      have := h _ (Nat.lt_succ_self _)
      rw [hc] at this; cases this
    | false =>
      simp only [hc, Bool.false_eq_true, if_false] at h ⊢
      cases hx : (readAuxNode cb ((readData cb 0 data).2 + 1) aux).2.2 with
      | false =>
        simp only [hx, Bool.false_eq_true, if_false] at h
        have := (ha.full (fun i _ b => h i b)).2
        rw [hx] at this; cases this
      | true =>
        simp only [hx, if_true] at h ⊢
        have l1 := hl.le
        have l2 := ha.le
        rw [he (fun i _ b => h i b), hl.full (fun i _ b => h i b), (ha.full (fun i _ b => h i (by omega))).1,
          (hd.full (fun i _ b => h i (by omega))).1]
        rfl

example : (read (fun _ => false) exFile).1 = whole exFile ∧ (whole exFile).doc.length = 8 ∧ (read (fun _ => false) exFile).2 = 17 :=
  ⟨C99_never_partial _ _ (fun _ _ => rfl), by decide +kernel, by decide +kernel⟩

/-- Who wants to stop and stays with it gets a beginning of the file in the order of the file: nothing before the last object that was
read is missing, each object is at its place, and nothing else is there. -/
theorem C99_beginning_partial (cb : Answers) (f : File) (s : Sticky cb) : (read cb f).1.doc <+: (whole f).doc := by
  obtain ⟨data, scene⟩ := f
  have hd := (readData_flat cb 0 data).pre s
  have short : ∀ (b : Bool) (w : Scene), w.data = data → (Scene.mk (readData cb 0 data).1 [] [] b).doc <+: w.doc := by
    intro b w e
    simp only [Scene.doc, List.map_nil, entries, List.append_nil, e]
    exact (hd.2.map Entry.data).trans (List.prefix_append _ _)
  cases scene with
  | none => exact short _ _ rfl
  | some sc =>
    obtain ⟨aux, layers⟩ := sc
    simp only [read]
    have ha := readAuxNode_flat cb ((readData cb 0 data).2 + 1) aux
    have hl := readLayersNode_run cb (readAuxNode cb ((readData cb 0 data).2 + 1) aux).2.1 layers
    cases hc : cb (readData cb 0 data).2 with
    | true => exact short _ _ rfl
    | false =>
      have e : (readData cb 0 data).1 = data := by
        rcases hd.1 with e | e
        · exact e
        · rw [hc] at e; cases e
      have wa : (whole ⟨data, some ⟨aux, layers⟩⟩).aux = auxOf aux := rfl
      have wl : (whole ⟨data, some ⟨aux, layers⟩⟩).layers = layersOf layers := rfl
      simp only [Bool.false_eq_true, if_false]
      cases hx : (readAuxNode cb ((readData cb 0 data).2 + 1) aux).2.2 with
      | false =>
        simp only [Bool.false_eq_true, if_false, Scene.doc, entries, List.append_nil, wa, whole_data, e]
        exact (List.prefix_append_right_inj _).mpr (((ha.pre s).2.map Entry.aux).trans (List.prefix_append _ _))
      | true =>
        simp only [if_true, Scene.doc, wa, wl, whole_data, e]
        refine (List.prefix_append_right_inj _).mpr ?_
        rcases (ha.pre s).1 with q | q
        · rw [q]
          exact (List.prefix_append_right_inj _).mpr ((hl.pre s).2 0)
        · rw [hl.idle s q]
          simp only [entries, List.append_nil]
          exact ((ha.pre s).2.map Entry.aux).trans (List.prefix_append _ _)

example : (read (from' 12) exFile).1.doc = [.data 7, .aux 8, .obj 0 1, .obj 1 2, .obj 2 3] ∧
    (read (from' 12) exFile).1.doc <+: (whole exFile).doc :=
  ⟨by decide +kernel, C99_beginning_partial _ _ (from'_sticky 12)⟩

/-- Stopping is quick: before each object that is read there was a question that was answered no, so nothing is read after the first
wish to stop.  If all questions from number `k` on are answered yes, the document has at most `k` entries. -/
theorem C99_quick_partial (cb : Answers) (f : File) (k : Nat) (h : ∀ i, k ≤ i → cb i = true) : (read cb f).1.doc.length ≤ k := by
  obtain ⟨data, scene⟩ := f
  have hd := (readData_flat cb 0 data).size k h
  cases scene with
  | none => simp only [read, Scene.doc, entries, List.map_nil, List.append_nil, List.length_map]; omega
  | some sc =>
    obtain ⟨aux, layers⟩ := sc
    simp only [read]
    have ha := readAuxNode_flat cb ((readData cb 0 data).2 + 1) aux
    have hl := (readLayersNode_run cb (readAuxNode cb ((readData cb 0 data).2 + 1) aux).2.1 layers).size k 0 h
    have hs := ha.size k h
    have hle := ha.le
    cases cb (readData cb 0 data).2 with
    | true => simp only [if_true, Scene.doc, entries, List.map_nil, List.append_nil, List.length_map]; omega
    | false =>
      simp only [Bool.false_eq_true, if_false]
      cases (readAuxNode cb ((readData cb 0 data).2 + 1) aux).2.2 with
      | false =>
        simp only [Bool.false_eq_true, if_false, Scene.doc, entries, List.append_nil, List.length_append, List.length_map]
        omega
      | true =>
        simp only [if_true, Scene.doc, List.length_append, List.length_map]
        omega

example : (read (from' 3) exFile).1.doc.length ≤ 3 := C99_quick_partial _ _ 3 (fun i h => by simpa [from'] using h)

/-- The number of questions for auxiliary nodes. -/
def asked (as : List AuxNd) : Nat := (as.map fun a => if a.known then 2 else 1).sum

theorem readData_no (cb : Answers) : ∀ (n : Nat) (ds : List Nat), (∀ i, n ≤ i → i < n + ds.length → cb i = false) →
    readData cb n ds = (ds, n + ds.length)
  | n, [], _ => rfl
  | n, d :: ds, h => by
    rw [List.length_cons] at h
    rw [readData, readData_no cb (n + 1) ds (fun i a b => h i (by omega) (by omega)), h n (Nat.le_refl n) (by omega),
      List.length_cons]
    simp only [Bool.false_eq_true, if_false, Prod.mk.injEq, true_and]
    omega

theorem readAux_at (cb : Answers) (a : AuxNd) (bs : List AuxNd) : ∀ (n : Nat) (as : List AuxNd),
    (∀ i, n ≤ i → i < n + asked as → cb i = false) → cb (n + asked as) = true →
    (readAux cb n (as ++ a :: bs)).1 = auxOf (some as) ∧ (readAux cb n (as ++ a :: bs)).2.2 = false
  | n, [], _, h => by
    have h : cb n = true := h
    simp [readAux, h, auxOf]
  | n, ⟨id, known⟩ :: as, g, h => by
    cases known with
    | false =>
      have e : asked (⟨id, false⟩ :: as) = 1 + asked as := by simp [asked]
      rw [e] at g h
      have r := readAux_at cb a bs (n + 1) as (fun i x y => g i (by omega) (by omega)) (by rw [← h]; congr 1; omega)
      rw [List.cons_append, readAux, g n (Nat.le_refl n) (by omega)]
      exact r
    | true =>
      have e : asked (⟨id, true⟩ :: as) = 2 + asked as := by simp [asked]
      rw [e] at g h
      have r := readAux_at cb a bs (n + 2) as (fun i x y => g i (by omega) (by omega)) (by rw [← h]; congr 1; omega)
      rw [List.cons_append, readAux, g n (Nat.le_refl n) (by omega)]
      simp only [Bool.false_eq_true, if_false, if_true, g (n + 1) (by omega) (by omega)]
      refine ⟨?_, r.2⟩
      rw [r.1]
      rfl

/-- Between two auxiliary nodes one wish to stop is enough: whatever is answered later, nothing behind that place is read, and the links
are not looked up. -/
theorem C99_between_partial (cb : Answers) (data : List Nat) (as bs : List AuxNd) (a : AuxNd) (ls : Option (List Nd))
    (g : ∀ i, i < data.length + 2 + asked as → cb i = false) (h : cb (data.length + 2 + asked as) = true) :
    (read cb ⟨data, some ⟨some (as ++ a :: bs), ls⟩⟩).1 = ⟨data, auxOf (some as), [], false⟩ := by
  have d := readData_no cb 0 data (fun i _ y => g i (by omega))
  rw [Nat.zero_add] at d
  have r := readAux_at cb a bs (data.length + 2) as (fun i _ y => g i y) h
  simp only [read, d, readAuxNode, g data.length (by omega), g (data.length + 1) (by omega), Bool.false_eq_true, if_false, r]

example : (read (once 5) exFile).1 = ⟨[7], [8], [], false⟩ :=
  C99_between_partial (once 5) [7] [⟨8, true⟩] [] ⟨9, false⟩ _
    (fun i h => by simp [asked] at h; simp [once]; omega) (by simp [once, asked])

/-- Whatever the function answers, nothing is invented and nothing is moved: the document is the file without some of its objects, each
left out with all that is in it. -/
theorem C99_part_partial (cb : Answers) (f : File) :
    (read cb f).1.data.Sublist (whole f).data ∧ (read cb f).1.aux.Sublist (whole f).aux ∧
    Part (read cb f).1.layers (whole f).layers := by
  obtain ⟨data, scene⟩ := f
  have hd := (readData_flat cb 0 data).part
  cases scene with
  | none => exact ⟨hd, .slnil, .nil⟩
  | some sc =>
    obtain ⟨aux, layers⟩ := sc
    simp only [read]
    have ha := (readAuxNode_flat cb ((readData cb 0 data).2 + 1) aux).part
    have hl := (readLayersNode_run cb (readAuxNode cb ((readData cb 0 data).2 + 1) aux).2.1 layers).part
    have wa : (whole ⟨data, some ⟨aux, layers⟩⟩).aux = auxOf aux := rfl
    have wl : (whole ⟨data, some ⟨aux, layers⟩⟩).layers = layersOf layers := rfl
    rw [wa, wl]
    cases cb (readData cb 0 data).2 with
    | true => exact ⟨hd, List.nil_sublist _, Part.none _⟩
    | false =>
      cases (readAuxNode cb ((readData cb 0 data).2 + 1) aux).2.2 with
      | false => exact ⟨hd, ha, Part.none _⟩
      | true => exact ⟨hd, ha, hl⟩

example : (read (once 9) exFile).1.doc = [.data 7, .aux 8, .obj 0 1, .obj 1 4, .obj 0 5, .obj 1 6] ∧
    Part (read (once 9) exFile).1.layers (whole exFile).layers :=
  ⟨by decide +kernel, (C99_part_partial _ _).2.2⟩

/-- The wish to stop is not remembered: who says it once, when an object is read, loses that object with all that is in it, and
everything behind it is read.  The document is not a beginning of the file, and nothing says that something is missing. -/
theorem C99_once_violated :
    (∀ (cb : Answers) (n id : Nat) (kids ts : List Nd), (∀ m, cb m = decide (m = n + 1)) →
      (readKids cb n (.mk id true kids :: ts)).1 = objsOf ts) ∧
    ∃ k, openForRead (some (once k)) exFile = (.noError, (read (once k) exFile).1) ∧ (read (once k) exFile).1.linked = true ∧
      ¬ (read (once k) exFile).1.doc <+: (whole exFile).doc := by
  constructor
  · intro cb n id kids ts h
    rw [readKids, readObj]
    have a : cb n = false := by rw [h]; simp
    have b : cb (n + 1) = true := by rw [h]; simp
    simp only [a, b, Bool.false_eq_true, if_false, if_true, List.nil_append]
    apply (readKids_run cb (n + 1 + 1) ts).full
    intro i hi _
    rw [h, decide_eq_false_iff_not]
    omega
  · exact ⟨9, rfl, by decide +kernel, by decide +kernel⟩

/-- Who stops between two layers gets objects whose links were not looked up. -/
theorem C99_links_violated :
    ∃ cb f, Sticky cb ∧ (read cb f).1.doc ≠ [] ∧ (read cb f).1.linked = false :=
  ⟨from' 12, exFile, from'_sticky 12, by decide +kernel, by decide +kernel⟩

/-- The call succeeds in all cases: a document that was given up, even before its first node, looks like an empty one. -/
theorem C99_told_violated (cb : Option Answers) (f : File) : (openForRead cb f).1 = .noError ∧
    (openForRead (some fun _ => true) f).2.doc = [] ∧ (openForRead none f).2 = whole f := by
  refine ⟨rfl, ?_, C99_never_partial _ _ (fun _ _ => rfl)⟩
  have := C99_quick_partial (fun _ => true) f 0 (fun _ _ => rfl)
  exact List.length_eq_zero_iff.mp (Nat.le_zero.mp this)

/-- The function is one for the whole process: set on one document, it is asked by every other document that is opened later. -/
theorem C99_shared_violated :
    ∃ (h : List (Nat × Option Answers)) (doc : Nat) (f : File), (∀ e ∈ h, e.1 ≠ doc) ∧
      (openForRead (setAll none h) f).2.doc ≠ (whole f).doc :=
  ⟨[(1, some fun _ => true)], 2, exFile, by decide, by decide +kernel⟩

/-- And it cannot be taken away: after it was set once, no history of calls leads back to a process without one; an empty function is
refused and changes nothing. -/
theorem C99_remove_violated (cb : Answers) (h : List (Nat × Option Answers)) (doc : Nat) :
    setAll (some cb) h ≠ none ∧ setAbort (some cb) doc none = (.failed, some cb) := by
  refine ⟨?_, rfl⟩
  induction h generalizing cb with
  | nil => simp [setAll]
  | cons e h ih =>
    obtain ⟨d, c⟩ := e
    cases c with
    | none => exact ih cb
    | some c => exact ih c

/-- The function that is asked is the last one that was set, on whatever document. -/
theorem C99_last_partial (h h' : List (Nat × Option Answers)) (cur : Option Answers) (doc : Nat) (cb : Answers)
    (e : ∀ x ∈ h', x.2 = none) : setAll cur (h ++ (doc, some cb) :: h') = some cb := by
  induction h generalizing cur with
  | nil =>
    show setAll (some cb) h' = some cb
    clear cur
    induction h' with
    | nil => rfl
    | cons x h' ih =>
      obtain ⟨d, c⟩ := x
      have : c = none := e (d, c) (List.mem_cons_self)
      subst this
      exact ih (fun y hy => e y (List.mem_cons_of_mem _ hy))
  | cons x h ih => exact ih _

example : setAll none [(1, some (from' 3)), (2, some (once 4)), (1, none)] = some (once 4) :=
  C99_last_partial [(1, some (from' 3))] [(1, none)] none 2 (once 4) (by simp)

end Verif.Abort
