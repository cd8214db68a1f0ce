import Verif.Disk.Spec
import Verif.Zip.Props

/-!
# Lemmas about saves and histories
-/

namespace Verif.Disk

open Verif.Zip Verif.Zip.Spec Verif.Disk.Spec

theorem after_append (d : Files) (l1 l2 : List Ev) : after d (l1 ++ l2) = after (after d l1) l2 := by
  unfold after; rw [List.foldl_append]

theorem after_nil (d : Files) : after d [] = d := rfl

theorem after_cons (d : Files) (e : Ev) (l : List Ev) : after d (e :: l) = after (e.apply d) l := rfl

theorem put_put (d : Files) (f : FileId) (v w : Option (List Byte)) : put (put d f v) f w = put d f w := by
  funext g; unfold put; split <;> rfl

theorem put_same (d : Files) (f : FileId) (v : Option (List Byte)) : put d f v f = v := by simp [put]

theorem put_other (d : Files) {f g : FileId} (v : Option (List Byte)) (h : g ≠ f) : put d f v g = d g := by simp [put, h]

theorem after_bytes (f : FileId) : ∀ (l : List Byte) (d : Files) (x : List Byte),
    after (put d f (some x)) (l.map (.byte f)) = put d f (some (x ++ l)) := by
  intro l
  induction l with
  | nil => intro d x; simp [after_nil]
  | cons b t ih =>
    intro d x
    rw [List.map_cons, after_cons, Ev.apply, put_same, put_put, ih]
    simp

/-- Bytes, a sync, bytes: the content after the first `k` events. -/
theorem after_parts (f : FileId) (d : Files) (x l1 l2 : List Byte) (k : Nat) :
    ∃ n, after (put d f (some x)) ((l1.map (Ev.byte f) ++ Ev.sync f :: l2.map (Ev.byte f)).take k) =
      put d f (some (x ++ (l1 ++ l2).take n)) := by
  rw [List.take_append, after_append, ← List.map_take, after_bytes]
  rcases Nat.lt_or_ge l1.length k with hk | hk
  · obtain ⟨m, hm⟩ : ∃ m, k - (l1.map (Ev.byte f)).length = m + 1 := ⟨k - l1.length - 1, by simp; omega⟩
    rw [hm, List.take_succ_cons, after_cons, ← List.map_take, Ev.apply, after_bytes]
    refine ⟨l1.length + m, ?_⟩
    rw [List.take_append, List.take_of_length_le (by omega : l1.length ≤ k),
      List.take_of_length_le (by omega : l1.length ≤ l1.length + m), List.append_assoc, Nat.add_sub_cancel_left]
  · rw [show k - (l1.map (Ev.byte f)).length = 0 from by simp; omega, List.take_zero, after_nil]
    exact ⟨k, by rw [List.take_append, show k - l1.length = 0 from by omega]; simp⟩

/-- At every moment of a save the file is the old one or holds the beginning of what is saved. -/
theorem save_take (os : Os) (f : FileId) (data : List Byte) (d : Files) (k : Nat) :
    after d ((save os f data).take k) = d ∨
      ∃ n, after d ((save os f data).take k) = put d f (some (data.take n)) := by
  unfold save
  split
  · cases k with
    | zero => exact .inl rfl
    | succ k =>
      refine .inr ?_
      rw [List.take_succ_cons, after_cons, Ev.apply]
      obtain ⟨n, hn⟩ := after_parts f d [] ((data.take os.room).take os.early) ((data.take os.room).drop os.early) k
      rw [hn, List.nil_append, List.take_append_drop, List.take_take]
      exact ⟨_, rfl⟩
  · exact .inl (by simp [after_nil])

/-- A save that has been carried out. -/
theorem save_done (os : Os) (f : FileId) (data : List Byte) (d : Files) (h : os.opens = true) :
    after d (save os f data) = put d f (some (data.take os.room)) := by
  unfold save
  rw [if_pos h, after_cons, Ev.apply, after_append, after_bytes, after_cons, Ev.apply, after_bytes]
  simp

theorem save_closed (os : Os) (f : FileId) (data : List Byte) (h : os.opens = false) : save os f data = [] := by
  unfold save; rw [if_neg (by rw [h]; decide)]

/-! ## Additions -/

/-- The object while an archive is being made. -/
def made (codec : Codec) (f : FileId) (c : Bool) (kept : List Add) : Obj :=
  ⟨some ⟨some f, false, if kept = [] then none else some (archive codec c kept)⟩, some f, true, c⟩

theorem made_data (codec : Codec) (f : FileId) (c : Bool) (kept : List Add) :
    (made codec f c kept).data = bytesOf codec c kept := by
  unfold made Obj.data bytesOf
  split <;> rfl

theorem made_zip (codec : Codec) (f : FileId) (c : Bool) (kept : List Add) :
    (made codec f c kept).zip = ⟨bytesOf codec c kept, true, c⟩ := by
  unfold Obj.zip; rw [made_data]; rfl

variable {codec : Codec} {c : Bool}

theorem bytesOf_snoc (kept : List Add) (a : Add) : bytesOf codec c (kept ++ [a]) = archive codec c (kept ++ [a]) :=
  bytesOf_ne (by simp)

theorem made_snoc (f : FileId) (kept : List Add) (a : Add) :
    made codec f c (kept ++ [a]) = ⟨some ⟨some f, false, some (archive codec c (kept ++ [a]))⟩, some f, true, c⟩ := by
  unfold made; rw [if_neg (by simp)]

theorem addErr_ne (out : List Byte) : addErr out ≠ .invalidArg := by
  unfold addErr; split <;> decide

/-- Adding a file with a new name. -/
theorem step_add_new {kept : List Add} (h : Limits codec c kept) {a : Add} {fuel : Nat} (hf : kept.length + 1 ≤ fuel)
    (hne : ∀ b ∈ kept, normPath b.path ≠ normPath a.path) (same : List Byte → List Byte → Bool) (env : Env) (d : Files)
    (f : FileId) :
    step codec fuel same env d (made codec f c kept) (.add a) =
      .ok (addErr (rawOf codec c a), made codec f c (kept ++ [a]), []) := by
  have hz := made_zip codec f c kept
  have hd := made_data codec f c kept
  have hadd := addFile_new h hf hne
  rw [made_snoc]
  have e1 : step codec fuel same env d (made codec f c kept) (.add a) = (do
        let (e, z) ← addFile codec fuel (made codec f c kept).zip a
        if e = .invalidArg then .ok (e, (made codec f c kept), [])
        else do
          let cd ← getCentralDirPosition (made codec f c kept).data
          let ed ← getEndOfCentralDirPosition (made codec f c kept).data
          if (made codec f c kept).data.length ≠ 0 ∧ cd ≠ 0 ∧ ed ≠ 0 then
            .ok (e, { (made codec f c kept) with buf := some ⟨some f, false, some z.data⟩ }, [])
          else
            .ok (e, { (made codec f c kept) with buf := some ⟨some f, false, some z.data⟩ },
              (Buf.mk (some f) false (if kept = [] then none else some (archive codec c kept))).close env.os1 ++
              (Buf.mk (some f) false (if kept = [] then none else some (archive codec c kept))).close env.os2)) := rfl
  rw [e1, hz, hd, hadd, ok_bind]
  simp only
  rw [if_neg (addErr_ne _), bytesOf_snoc]
  by_cases hk : kept = []
  · subst hk
    rfl
  · rw [bytesOf_ne hk, getCentralDirPosition_archive hk h, ok_bind, getEndOfCentralDirPosition_archive hk h, ok_bind]
    have h4 := locals_pos (codec := codec) (c := c) hk
    rw [if_pos ⟨by rw [archive_length]; omega, by omega, by omega⟩]
    rfl

/-- Adding a file with a name already used. -/
theorem step_add_old {l1 l2 : List Add} {b a : Add} (h : Limits codec c (l1 ++ b :: l2)) {fuel : Nat}
    (hf : l1.length + 1 ≤ fuel) (hne : ∀ x ∈ l1, normPath x.path ≠ normPath b.path) (he : normPath a.path = normPath b.path)
    (same : List Byte → List Byte → Bool) (env : Env) (d : Files) (f : FileId) :
    step codec fuel same env d (made codec f c (l1 ++ b :: l2)) (.add a) =
      .ok (.invalidArg, made codec f c (l1 ++ b :: l2), []) := by
  have hz := made_zip codec f c (l1 ++ b :: l2)
  have hadd := addFile_duplicate h hf hne (b := a) he c
  unfold step
  have hb : (made codec f c (l1 ++ b :: l2)).buf = some ⟨some f, false, some (archive codec c (l1 ++ b :: l2))⟩ := by
    unfold made; rw [if_neg (by simp)]
  have hw : ¬ (made codec f c (l1 ++ b :: l2)).write = false := by unfold made; simp
  simp only [hb, if_neg hw]
  rw [hz, hadd, ok_bind]
  rfl

/-- What other programs do in a history, as events. -/
def otherEvs : List Act → List Ev
  | [] => []
  | .other f v :: t => .other f v :: otherEvs t
  | .call _ _ :: t => otherEvs t

theorem after_others (acts : List Act) : ∀ d, after d (otherEvs acts) = others d acts := by
  induction acts with
  | nil => intro d; rfl
  | cons x t ih =>
    intro d
    cases x with
    | call env op => exact ih d
    | other f v => rw [otherEvs, after_cons, Ev.apply, ih, others]

theorem run_adds (fuel : Nat) (same : List Byte → List Byte → Bool) (f : FileId) (acts : List Act) :
    ∀ (d : Files) (kept : List Add), OnlyAdds acts → InLimits codec c (firsts kept (adds acts)) →
      (firsts kept (adds acts)).length + 1 ≤ fuel →
      run codec fuel same d (made codec f c kept) acts =
        .ok (results codec c kept (adds acts), made codec f c (firsts kept (adds acts)), otherEvs acts) := by
  induction acts with
  | nil => intro d kept _ _ _; rfl
  | cons x t ih =>
    intro d kept ho h hf
    have hot : OnlyAdds t := fun y hy => ho y (by simp [hy])
    rcases ho x (by simp) with ⟨env, a, rfl⟩ | ⟨g, v, rfl⟩
    · obtain ⟨l, hl⟩ := firsts_prefix (adds (.call env (.add a) :: t)) kept
      have hk : InLimits codec c kept := by rw [hl] at h; exact h.left
      have hfk : kept.length + 1 ≤ fuel := by rw [hl, List.length_append] at hf; omega
      rw [run]
      simp only [adds, otherEvs] at h hf ⊢
      by_cases hm : entryName a.path ∈ kept.map (fun b => entryName b.path)
      · rw [firsts, if_pos hm] at h hf ⊢
        rw [results, if_pos hm]
        obtain ⟨l1, b, l2, h1, h2, h3⟩ := split_first hm
        have hkl := hk.limits
        rw [h1] at hkl
        have := step_add_old hkl (fuel := fuel) (by rw [h1] at hfk; simp at hfk; omega) h3 (a := a) h2.symm same env d f
        rw [← h1] at this
        rw [this, ok_bind]
        simp only
        rw [ih _ kept hot h hf, ok_bind]
        rfl
      · rw [firsts, if_neg hm] at h hf ⊢
        rw [results, if_neg hm]
        have hne : ∀ b ∈ kept, normPath b.path ≠ normPath a.path := fun b hb he =>
          hm (List.mem_map.2 ⟨b, hb, he⟩)
        rw [step_add_new hk.limits hfk hne same env d f, ok_bind]
        simp only
        rw [ih _ _ hot h hf, ok_bind, addErr_eq]
        rfl
    · rw [run]
      simp only [adds, otherEvs] at h hf ⊢
      rw [ih _ kept hot h hf, ok_bind]

/-- Histories one after the other. -/
theorem run_append (fuel : Nat) (same : List Byte → List Byte → Bool) (a1 : List Act) : ∀ (a2 : List Act) (d : Files) (o : Obj)
    (es : List Err) (o' : Obj) (evs : List Ev), run codec fuel same d o a1 = .ok (es, o', evs) →
    run codec fuel same d o (a1 ++ a2) = (do
      let (es2, o2, evs2) ← run codec fuel same (after d evs) o' a2
      .ok (es ++ es2, o2, evs ++ evs2)) := by
  induction a1 with
  | nil =>
    intro a2 d o es o' evs h
    rw [run] at h
    injection h with h; injection h with h1 h2; injection h2 with h2 h3
    subst h1 h2 h3
    rw [List.nil_append, after_nil]
    cases run codec fuel same d o a2 with
    | error e => rfl
    | ok r => rfl
  | cons x t ih =>
    intro a2 d o es o' evs h
    cases x with
    | other f v =>
      rw [run] at h
      obtain ⟨⟨es1, o1, evs1⟩, h1, h2⟩ := bind_ok h
      injection h2 with h2; injection h2 with h2 h3; injection h3 with h3 h4
      subst h2 h3 h4
      rw [List.cons_append, run, ih a2 _ _ _ _ _ h1, after_cons, Ev.apply]
      cases run codec fuel same (after (put d f v) evs1) o1 a2 with
      | error e => rfl
      | ok r => rfl
    | call env op =>
      rw [run] at h
      obtain ⟨⟨e0, o0, evs0⟩, h0, h⟩ := bind_ok h
      obtain ⟨⟨es1, o1, evs1⟩, h1, h2⟩ := bind_ok h
      injection h2 with h2; injection h2 with h2 h3; injection h3 with h3 h4
      subst h2 h3 h4
      rw [List.cons_append, run, h0, ok_bind]
      simp only
      rw [ih a2 _ _ _ _ _ h1, after_append]
      cases run codec fuel same (after (after d evs0) evs1) o1 a2 with
      | error e => rfl
      | ok r => simp [ok_bind]

/-- Making an archive, call by call. -/
theorem run_making (fuel : Nat) (same : List Byte → List Byte → Bool) (env env' : Env) (f : FileId) (acts : List Act)
    (d : Files) (ho : OnlyAdds acts) (h : InLimits codec c (firsts [] (adds acts))) (hf : (adds acts).length + 1 ≤ fuel) :
    run codec fuel same d fresh (making env f c acts env') =
      .ok (makingResults codec c acts, { made codec f c (firsts [] (adds acts)) with write := false },
        otherEvs acts ++ (if firsts [] (adds acts) = [] then [] else save env'.os1 f (archive codec c (firsts [] (adds acts))))) := by
  have hl := firsts_length (adds acts) []
  rw [List.length_nil, Nat.zero_add] at hl
  have hr := run_adds (c := c) fuel same f acts d [] ho h (by omega)
  have ha := run_append fuel same acts [.call env' .close] d _ _ _ _ hr
  unfold making
  rw [run]
  have h0 : step codec fuel same env d fresh (.openNew f c) = .ok (.noError, made codec f c [], []) := rfl
  rw [h0, ok_bind]
  simp only [after_nil]
  rw [ha, run]
  have h1 : step codec fuel same env' (after d (otherEvs acts)) (made codec f c (firsts [] (adds acts))) .close =
      .ok (.noError, { made codec f c (firsts [] (adds acts)) with write := false },
        if firsts [] (adds acts) = [] then [] else save env'.os1 f (archive codec c (firsts [] (adds acts)))) := by
    unfold step made
    simp only
    by_cases he : firsts [] (adds acts) = []
    · rw [if_pos he, if_pos he]; rfl
    · rw [if_neg he, if_neg he]; rfl
  rw [h1, ok_bind]
  simp only [run, ok_bind]
  rw [makingResults]
  simp

theorem adds_adding (l : List (Env × Add)) : adds (adding l) = l.map (·.2) := by
  induction l with
  | nil => rfl
  | cons a t ih => rw [adding, List.map_cons, adds]; exact congrArg _ ih

theorem onlyAdds_adding (l : List (Env × Add)) : OnlyAdds (adding l) := by
  intro x hx
  obtain ⟨p, _, rfl⟩ := List.mem_map.1 hx
  exact .inl ⟨_, _, rfl⟩

theorem otherEvs_adding (l : List (Env × Add)) : otherEvs (adding l) = [] := by
  induction l with
  | nil => rfl
  | cons a t ih => exact ih

end Verif.Disk
