import Verif.Disk.Cut

/-!
# Properties of the files behind the archives (C74, C75)
-/

namespace Verif.Disk

open Verif.Zip Verif.Zip.Spec Verif.Disk.Spec

variable {codec : Codec} {c : Bool}

theorem firsts_ne {as : List Add} (h : as ≠ []) : firsts [] as ≠ [] := by
  cases as with
  | nil => exact absurd rfl h
  | cons x t =>
    obtain ⟨l, hl⟩ := firsts_prefix t [x]
    rw [firsts, if_neg (by simp)]
    show firsts [x] t ≠ []
    rw [hl]; simp

/-- The archive made of some files, and the history of making it. -/
theorem making_run (fuel : Nat) (same : List Byte → List Byte → Bool) (env env' : Env) (f : FileId) (d : Files)
    (l : List (Env × Add)) (hne : l ≠ []) (h : InLimits codec c (firsts [] (l.map (·.2)))) (hf : l.length + 1 ≤ fuel) :
    addAll codec fuel (openNewWrite c) (l.map (·.2)) =
        .ok (results codec c [] (l.map (·.2)), ⟨archive codec c (firsts [] (l.map (·.2))), true, c⟩) ∧
      run codec fuel same d fresh (making env f c (adding l) env') =
        .ok (makingResults codec c (adding l), { made codec f c (firsts [] (l.map (·.2))) with write := false },
          save env'.os1 f (archive codec c (firsts [] (l.map (·.2))))) := by
  have hl := firsts_length (l.map (·.2)) []
  rw [List.length_nil, Nat.zero_add] at hl
  have hn : firsts [] (l.map (·.2)) ≠ [] := firsts_ne (by simpa using hne)
  refine ⟨?_, ?_⟩
  · rw [addAll_new fuel _ h (by simpa using hf) hl, bytesOf_ne hn]
  · have := run_making (c := c) fuel same env env' f (adding l) d (onlyAdds_adding l) (by rw [adds_adding]; exact h)
      (by rw [adds_adding]; simpa using hf)
    rw [this, otherEvs_adding, adds_adding, if_neg hn, List.nil_append]

/-- An operating system that hands over 10 bytes at first; three additions, the last of a name used before. -/
def sampleOs : Os := ⟨true, 10, 1000000⟩
def sampleEnv : Env := ⟨sampleOs, sampleOs, 0#8, ⟨[], [], 0, 0, 0, 0, 0, 0, 0, 0, 0, 0, 0⟩, []⟩
def sampleCodec : Codec := ⟨id, some⟩
def sampleList : List (Env × Add) := sampleAdds.map (fun a => (sampleEnv, a))

theorem sample_limits : InLimits sampleCodec false (firsts [] (sampleList.map (·.2))) := sample_inLimits sampleCodec

theorem sample_works : ∀ z es, addAll sampleCodec 9 (openNewWrite false) sampleAdds = .ok (es, z) →
    Works sampleOs z.data.length ∧ 10 < z.data.length := by
  have e := addAll_new (codec := sampleCodec) (c := false) 9 sampleAdds (sample_inLimits _) (by decide) (by decide)
  intro z es h
  rw [e] at h
  injection h with h; injection h with _ h
  rw [← h]
  exact ⟨⟨rfl, by decide +kernel⟩, by decide +kernel⟩

/-- C74, the part that holds: whatever the process is doing when it is killed while an archive is made — opened anew,
filled and closed — the file holds what it held before or the beginning of the new archive, and no other file is
changed. Until `Close` is called nothing at all happens to the files. -/
theorem C74_killed_partial (fuel : Nat) (same : List Byte → List Byte → Bool) (env env' : Env) (f : FileId) (d : Files)
    (l : List (Env × Add)) (hne : l ≠ []) (h : InLimits codec c (firsts [] (l.map (·.2)))) (hf : l.length + 1 ≤ fuel) :
    ∃ z o o' evs, addAll codec fuel (openNewWrite c) (l.map (·.2)) = .ok (results codec c [] (l.map (·.2)), z) ∧
      run codec fuel same d fresh (.call env (.openNew f c) :: adding l) =
        .ok (.noError :: results codec c [] (l.map (·.2)), o, []) ∧
      run codec fuel same d fresh (making env f c (adding l) env') = .ok (makingResults codec c (adding l), o', evs) ∧
      ∀ k, (killed d evs k f = d f ∨ ∃ n, killed d evs k f = some (z.data.take n)) ∧
        ∀ g, g ≠ f → killed d evs k g = d g := by
  obtain ⟨h1, h2⟩ := making_run (c := c) fuel same env env' f d l hne h hf
  have hl := firsts_length (l.map (·.2)) []
  rw [List.length_nil, Nat.zero_add, List.length_map] at hl
  have hr := run_adds (c := c) fuel same f (adding l) d [] (onlyAdds_adding l) (by rw [adds_adding]; exact h)
      (by rw [adds_adding]; omega)
  rw [adds_adding, otherEvs_adding] at hr
  refine ⟨_, made codec f c (firsts [] (l.map (·.2))), _, _, h1, ?_, h2, ?_⟩
  · rw [run]
    have h0 : step codec fuel same env d fresh (.openNew f c) = .ok (.noError, made codec f c [], []) := rfl
    rw [h0, ok_bind]
    simp only [after_nil]
    rw [hr, ok_bind]
    rfl
  · intro k
    rcases save_take env'.os1 f (archive codec c (firsts [] (l.map (·.2)))) d k with hk | ⟨n, hk⟩
    · unfold killed
      rw [hk]
      exact ⟨.inl rfl, fun _ _ => rfl⟩
    · unfold killed
      rw [hk]
      exact ⟨.inr ⟨n, put_same _ _ _⟩, fun g hg => put_other _ _ hg⟩

example (d : Files) : ∃ z o o' evs, addAll sampleCodec 9 (openNewWrite false) sampleAdds =
      .ok ([.noError, .noError, .invalidArg], z) ∧
    run sampleCodec 9 (fun _ _ => false) d fresh (.call sampleEnv (.openNew 1 false) :: adding sampleList) =
      .ok ([.noError, .noError, .noError, .invalidArg], o, []) ∧
    run sampleCodec 9 (fun _ _ => false) d fresh (making sampleEnv 1 false (adding sampleList) sampleEnv) =
      .ok ([.noError, .noError, .noError, .invalidArg, .noError], o', evs) ∧
    ∀ k, (killed d evs k 1 = d 1 ∨ ∃ n, killed d evs k 1 = some (z.data.take n)) ∧ ∀ g, g ≠ 1 → killed d evs k g = d g :=
  C74_killed_partial 9 _ sampleEnv sampleEnv 1 d sampleList (by decide) sample_limits (by decide)

/-- C74, the part that holds: the same when the power fails at any moment, of what is found afterwards in the file. -/
theorem C74_power_partial (fuel : Nat) (same : List Byte → List Byte → Bool) (env env' : Env) (f : FileId) (d : Files)
    (l : List (Env × Add)) (hne : l ≠ []) (h : InLimits codec c (firsts [] (l.map (·.2)))) (hf : l.length + 1 ≤ fuel) :
    ∃ z o' evs, addAll codec fuel (openNewWrite c) (l.map (·.2)) = .ok (results codec c [] (l.map (·.2)), z) ∧
      run codec fuel same d fresh (making env f c (adding l) env') = .ok (makingResults codec c (adding l), o', evs) ∧
      ∀ k v, PowerLoss d evs k f v → v = d f ∨ ∃ n, v = some (z.data.take n) := by
  obtain ⟨h1, h2⟩ := making_run (c := c) fuel same env env' f d l hne h hf
  refine ⟨_, _, _, h1, h2, ?_⟩
  rintro k v ⟨j, _, _, rfl⟩
  rcases save_take env'.os1 f (archive codec c (firsts [] (l.map (·.2)))) d j with hk | ⟨n, hk⟩
  · exact .inl (by rw [hk])
  · exact .inr ⟨n, by rw [hk, put_same]⟩

example (d : Files) := C74_power_partial 9 (fun _ _ => false) sampleEnv sampleEnv 1 d sampleList (by decide) sample_limits (by decide)

/-- C74, the part that holds: when nothing fails, the file holds the new archive after `Close`, whatever it held before;
and if `fwrite` has kept nothing back, it still does after a power failure. -/
theorem C74_saved_partial (fuel : Nat) (same : List Byte → List Byte → Bool) (env env' : Env) (f : FileId) (d : Files)
    (l : List (Env × Add)) (hne : l ≠ []) (h : InLimits codec c (firsts [] (l.map (·.2)))) (hf : l.length + 1 ≤ fuel) :
    ∃ z o' evs, addAll codec fuel (openNewWrite c) (l.map (·.2)) = .ok (results codec c [] (l.map (·.2)), z) ∧
      run codec fuel same d fresh (making env f c (adding l) env') = .ok (makingResults codec c (adding l), o', evs) ∧
      (Works env'.os1 z.data.length → after d evs f = some z.data) ∧
      (Works env'.os1 z.data.length → z.data.length ≤ env'.os1.early →
        ∀ v, PowerLoss d evs evs.length f v → v = some z.data) := by
  obtain ⟨h1, h2⟩ := making_run (c := c) fuel same env env' f d l hne h hf
  have hdone : Works env'.os1 (archive codec c (firsts [] (l.map (·.2)))).length →
      after d (save env'.os1 f (archive codec c (firsts [] (l.map (·.2))))) f = some (archive codec c (firsts [] (l.map (·.2)))) := by
    intro hw
    rw [save_done _ _ _ _ hw.1, put_same, List.take_of_length_le hw.2]
  refine ⟨_, _, _, h1, h2, hdone, ?_⟩
  rintro hw he v ⟨j, hj, hs, rfl⟩
  have e : save env'.os1 f (archive codec c (firsts [] (l.map (·.2)))) =
      (Ev.create f :: (archive codec c (firsts [] (l.map (·.2)))).map (.byte f)) ++ [.sync f] := by
    unfold save
    rw [if_pos hw.1, List.take_of_length_le hw.2, List.take_of_length_le he, List.drop_eq_nil_of_le he]
    rfl
  have hje : j = (save env'.os1 f (archive codec c (firsts [] (l.map (·.2))))).length := by
    refine Nat.le_antisymm hj (Nat.le_of_not_lt fun hlt => ?_)
    refine hs ((archive codec c (firsts [] (l.map (·.2)))).length + 1) ?_ ?_ ?_
    · rw [e] at hlt; simp at hlt; omega
    · rw [e]; simp
    · rw [e, List.getElem?_append_right (by simp)]; simp
  rw [hje, List.take_length]
  exact hdone hw

/-- With a stream that keeps nothing back. -/
example (d : Files) : ∃ z o' evs, addAll sampleCodec 9 (openNewWrite false) sampleAdds =
      .ok ([.noError, .noError, .invalidArg], z) ∧
    run sampleCodec 9 (fun _ _ => false) d fresh
        (making sampleEnv 1 false (adding sampleList) { sampleEnv with os1 := ⟨true, 1000000, 1000000⟩ }) =
      .ok ([.noError, .noError, .noError, .invalidArg, .noError], o', evs) ∧
    after d evs 1 = some z.data ∧ ∀ v, PowerLoss d evs evs.length 1 v → v = some z.data := by
  obtain ⟨z, o', evs, h1, h2, h3, h4⟩ := C74_saved_partial 9 (fun _ _ => false) sampleEnv
    { sampleEnv with os1 := ⟨true, 1000000, 1000000⟩ } 1 d sampleList (by decide) sample_limits (by decide)
  have hw := (sample_works z _ h1).1
  exact ⟨z, o', evs, h1, h2, h3 hw, h4 hw hw.2⟩

/-- C74 is violated: there is a moment at which the file is empty, whatever it held before — the old archive is gone and
the new one is not there. -/
theorem C74_atomic_violated (fuel : Nat) (same : List Byte → List Byte → Bool) (env env' : Env) (f : FileId) (d : Files)
    (l : List (Env × Add)) (hne : l ≠ []) (h : InLimits codec c (firsts [] (l.map (·.2)))) (hf : l.length + 1 ≤ fuel)
    (hos : env'.os1.opens = true) (old : List Byte) (_hold : d f = some old) (hold0 : old ≠ []) :
    ∃ z o' evs k, addAll codec fuel (openNewWrite c) (l.map (·.2)) = .ok (results codec c [] (l.map (·.2)), z) ∧
      run codec fuel same d fresh (making env f c (adding l) env') = .ok (makingResults codec c (adding l), o', evs) ∧
      killed d evs k f ≠ some old ∧ killed d evs k f ≠ some z.data ∧
      (∀ stale path, getNextFile fuel (load (killed d evs k) f) stale path = .ok (.failed, [])) := by
  obtain ⟨h1, h2⟩ := making_run (c := c) fuel same env env' f d l hne h hf
  have e : killed d (save env'.os1 f (archive codec c (firsts [] (l.map (·.2))))) 1 f = some [] := by
    unfold killed save
    rw [if_pos hos, List.take_succ_cons, List.take_zero, after_cons, Ev.apply, after_nil, put_same]
  refine ⟨_, _, _, 1, h1, h2, ?_, ?_, ?_⟩
  · rw [e]; intro he; injection he with he; exact hold0 he.symm
  · rw [e]; intro he; injection he with he
    have := congrArg List.length he
    rw [archive_length] at this
    simp at this
  · intro stale path
    unfold load
    rw [e]
    rfl

example := C74_atomic_violated 9 (fun _ _ => false) sampleEnv sampleEnv 1 (fun _ => some [1#8]) sampleList (by decide)
  sample_limits (by decide) rfl [1#8] rfl (by decide)

/-- C74 is violated: `Close` has returned, nothing has failed, and still a power failure can leave only the part of the
archive that `fwrite` had handed over — `fsync` is called before `fclose` hands over the rest. -/
theorem C74_durable_violated (fuel : Nat) (same : List Byte → List Byte → Bool) (env env' : Env) (f : FileId) (d : Files)
    (l : List (Env × Add)) (hne : l ≠ []) (h : InLimits codec c (firsts [] (l.map (·.2)))) (hf : l.length + 1 ≤ fuel) :
    ∃ z o' evs, addAll codec fuel (openNewWrite c) (l.map (·.2)) = .ok (results codec c [] (l.map (·.2)), z) ∧
      run codec fuel same d fresh (making env f c (adding l) env') = .ok (makingResults codec c (adding l), o', evs) ∧
      (Works env'.os1 z.data.length → after d evs f = some z.data ∧
        PowerLoss d evs evs.length f (some (z.data.take env'.os1.early))) := by
  obtain ⟨h1, h2⟩ := making_run (c := c) fuel same env env' f d l hne h hf
  refine ⟨_, _, _, h1, h2, fun hw => ⟨?_, ?_⟩⟩
  · rw [save_done _ _ _ _ hw.1, put_same, List.take_of_length_le hw.2]
  · generalize archive codec c (firsts [] (l.map (·.2))) = data at hw ⊢
    have hw2 : data.length ≤ env'.os1.room := hw.2
    have e : save env'.os1 f data =
        (Ev.create f :: ((data.take env'.os1.early).map (.byte f) ++ [.sync f])) ++ (data.drop env'.os1.early).map (.byte f) := by
      unfold save
      rw [if_pos hw.1, List.take_of_length_le hw2]
      simp
    refine ⟨(Ev.create f :: ((data.take env'.os1.early).map (Ev.byte f) ++ [Ev.sync f])).length, ?_, ?_, ?_⟩
    · rw [e, List.length_append]; omega
    · intro i hi hi2 hs
      rw [e, List.getElem?_append_right hi] at hs
      obtain ⟨x, _, hx⟩ := List.mem_map.1 (List.mem_of_getElem? hs)
      cases hx
    · rw [e, List.take_left, after_cons, Ev.apply, after_append, after_bytes, after_cons, Ev.apply, after_nil, put_same]
      rfl

/-- Ten bytes have been handed over before `fsync`: after a power failure the file may hold only these. -/
example (d : Files) : ∃ z o' evs, addAll sampleCodec 9 (openNewWrite false) sampleAdds =
      .ok ([.noError, .noError, .invalidArg], z) ∧
    run sampleCodec 9 (fun _ _ => false) d fresh (making sampleEnv 1 false (adding sampleList) sampleEnv) =
      .ok ([.noError, .noError, .noError, .invalidArg, .noError], o', evs) ∧
    after d evs 1 = some z.data ∧ ∃ v, PowerLoss d evs evs.length 1 v ∧ v ≠ some z.data := by
  obtain ⟨z, o', evs, h1, h2, h3⟩ := C74_durable_violated 9 (fun _ _ => false) sampleEnv sampleEnv 1 d sampleList (by decide)
    sample_limits (by decide)
  have hw := sample_works z _ h1
  refine ⟨z, o', evs, h1, h2, (h3 hw.1).1, _, (h3 hw.1).2, fun he => ?_⟩
  injection he with he
  have := congrArg List.length he
  rw [List.length_take] at this
  have h10 : sampleEnv.os1.early = 10 := rfl
  have := hw.2
  omega

/-- C74 is violated: an archive without its last 3, 4 or 5 bytes — what a killed process or a power failure can leave —
is not refused when it is opened: listing it reads outside the buffer. -/
theorem C74_cut_violated (fuel : Nat) (as : List Add) (hne : as ≠ []) (h : InLimits codec c (firsts [] as))
    (hf : as.length + 1 ≤ fuel) :
    ∃ z, addAll codec fuel (openNewWrite c) as = .ok (results codec c [] as, z) ∧
      ∀ m, 3 ≤ m → m ≤ 5 → ∀ fuel' stale path,
        getNextFile fuel' (openRead (z.data.take (z.data.length - m))).data stale path = .error .ub := by
  have hl := firsts_length as []
  rw [List.length_nil, Nat.zero_add] at hl
  refine ⟨_, addAll_new fuel as h hf hl, ?_⟩
  intro m h3 h5 fuel' stale path
  rw [bytesOf_ne (firsts_ne hne)]
  have := getNextFile_cut (firsts_ne hne) h.limits m h3 (by omega) fuel' stale path
  rw [if_pos h5] at this
  exact this

example := C74_cut_violated 9 sampleAdds (by decide) (sample_inLimits sampleCodec) (by decide)

/-- C74, the part that holds: an archive without its last 6 to 17 bytes is refused. -/
theorem C74_cut_partial (fuel : Nat) (as : List Add) (hne : as ≠ []) (h : InLimits codec c (firsts [] as))
    (hf : as.length + 1 ≤ fuel) :
    ∃ z, addAll codec fuel (openNewWrite c) as = .ok (results codec c [] as, z) ∧
      ∀ m, 6 ≤ m → m ≤ 17 → ∀ fuel' stale path,
        getNextFile fuel' (openRead (z.data.take (z.data.length - m))).data stale path = .ok (.failed, []) := by
  have hl := firsts_length as []
  rw [List.length_nil, Nat.zero_add] at hl
  refine ⟨_, addAll_new fuel as h hf hl, ?_⟩
  intro m h3 h5 fuel' stale path
  rw [bytesOf_ne (firsts_ne hne)]
  have := getNextFile_cut (firsts_ne hne) h.limits m (by omega) h5 fuel' stale path
  rw [if_neg (by omega)] at this
  exact this

example := C74_cut_partial 9 sampleAdds (by decide) (sample_inLimits sampleCodec) (by decide)

/-- C74 is violated: when the file cannot be opened for writing, or there is not room enough, all calls return what they
return when everything works; the file is as before, or holds the beginning of the archive. -/
theorem C74_errors_violated (fuel : Nat) (same : List Byte → List Byte → Bool) (env env' : Env) (f : FileId) (d : Files)
    (l : List (Env × Add)) (hne : l ≠ []) (h : InLimits codec c (firsts [] (l.map (·.2)))) (hf : l.length + 1 ≤ fuel) :
    ∃ z o' evs, addAll codec fuel (openNewWrite c) (l.map (·.2)) = .ok (results codec c [] (l.map (·.2)), z) ∧
      run codec fuel same d fresh (making env f c (adding l) env') = .ok (makingResults codec c (adding l), o', evs) ∧
      (env'.os1.opens = false → after d evs = d) ∧
      (env'.os1.opens = true → after d evs f = some (z.data.take env'.os1.room)) := by
  obtain ⟨h1, h2⟩ := making_run (c := c) fuel same env env' f d l hne h hf
  refine ⟨_, _, _, h1, h2, fun ho => ?_, fun ho => ?_⟩
  · rw [save_closed _ _ _ ho, after_nil]
  · rw [save_done _ _ _ _ ho, put_same]

example (d : Files) := C74_errors_violated 9 (fun _ _ => false) sampleEnv { sampleEnv with os1 := ⟨true, 0, 7⟩ } 1 d sampleList
  (by decide) sample_limits (by decide)

/-! ## C75 -/

/-- C75, the part that holds: an archive is made in a file — opened anew, files added, closed — while other programs are
at work on any files between the calls; then any object opens it for reading, with still other programs at work that
leave this file alone: exactly the files added are listed, in their order, and each is read with its content. -/
theorem C75_saved_partial (hcodec : Lossless codec) (fuel : Nat) (same : List Byte → List Byte → Bool) (env env' : Env)
    (f : FileId) (d : Files) (acts : List Act) (ho : OnlyAdds acts) (hne : adds acts ≠ [])
    (h : InLimits codec c (firsts [] (adds acts))) (hf : (adds acts).length + 1 ≤ fuel)
    (hw : ∀ z es, addAll codec fuel (openNewWrite c) (adds acts) = .ok (es, z) → Works env'.os1 z.data.length)
    (later : List (FileId × Option (List Byte))) (hlater : ∀ p ∈ later, p.1 ≠ f) (env2 : Env) (stale : Byte)
    (rounds : Nat) (hr : (adds acts).length + 1 ≤ rounds) :
    ∃ o evs o2 evs2,
      run codec fuel same d fresh (making env f c acts env') = .ok (makingResults codec c acts, o, evs) ∧
      run codec fuel same (after d evs) fresh (later.map (fun p => .other p.1 p.2) ++ [.call env2 (.openRead f)]) =
        .ok ([.noError], o2, evs2) ∧
      walk fuel o2.data stale rounds [] = .ok ((firsts [] (adds acts)).map (fun a => entryName a.path), .false_) ∧
      ∀ a ∈ firsts [] (adds acts), ∀ garbage,
        getFile codec fuel o2.data garbage (entryName a.path) = .ok (.noError, some a.content) := by
  have hl := firsts_length (adds acts) []
  rw [List.length_nil, Nat.zero_add] at hl
  have hn := firsts_ne hne
  have hadd := addAll_new fuel (adds acts) h hf hl
  have hrun := run_making (c := c) fuel same env env' f acts d ho h hf
  have hw := hw _ _ hadd
  simp only [bytesOf_ne hn] at hw
  rw [if_neg hn] at hrun
  have hfile : (after d (otherEvs acts ++ save env'.os1 f (archive codec c (firsts [] (adds acts))))) f =
      some (archive codec c (firsts [] (adds acts))) := by
    rw [after_append, save_done _ _ _ _ hw.1, put_same, List.take_of_length_le hw.2]
  have hopen : ∀ (later : List (FileId × Option (List Byte))) (D : Files), (∀ p ∈ later, p.1 ≠ f) →
      ∃ evs2, run codec fuel same D fresh (later.map (fun p => Act.other p.1 p.2) ++ [.call env2 (.openRead f)]) =
        .ok ([.noError], ⟨some ⟨some f, true, some (load D f)⟩, some f, false, true⟩, evs2) := by
    intro later
    induction later with
    | nil => intro D _; exact ⟨[], rfl⟩
    | cons p t ih =>
      intro D hp
      obtain ⟨evs2, he⟩ := ih (put D p.1 p.2) (fun q hq => hp q (by simp [hq]))
      refine ⟨.other p.1 p.2 :: evs2, ?_⟩
      rw [List.map_cons, List.cons_append, run, he, ok_bind]
      have : load (put D p.1 p.2) f = load D f := by
        unfold load; rw [put_other _ _ (Ne.symm (hp p (by simp)))]
      rw [this]
  obtain ⟨evs2, he⟩ := hopen later _ hlater
  refine ⟨_, _, _, evs2, hrun, he, ?_, ?_⟩
  · obtain ⟨z, hz1, hz2⟩ := C04_listing fuel (adds acts) h hf stale rounds hr
    rw [hadd] at hz1
    injection hz1 with hz1; injection hz1 with _ hz1
    rw [← hz1, bytesOf_ne hn, if_neg hne] at hz2
    show walk fuel (load _ f) stale rounds [] = _
    unfold load
    rw [hfile]
    exact hz2
  · intro a ha garbage
    obtain ⟨z, hz1, hz2⟩ := C03_add_then_read hcodec fuel (adds acts) h hf
    rw [hadd] at hz1
    injection hz1 with hz1; injection hz1 with _ hz1
    have := (hz2 a ha garbage).1
    rw [← hz1, bytesOf_ne hn] at this
    show getFile codec fuel (load _ f) garbage _ = _
    unfold load
    rw [hfile]
    exact this

/-- Another program deletes the file while the archive is being made, and changes another one afterwards. -/
def sampleActs : List Act :=
  [.call sampleEnv (.add ⟨[0x61#8], [1#8, 2#8, 3#8], 7, 1, 2⟩), .other 1 none,
    .call sampleEnv (.add ⟨[0x62#8, 0x5C#8, 0x63#8], [4#8], 9, 1, 2⟩), .call sampleEnv (.add ⟨[0x61#8], [5#8], 9, 1, 2⟩)]

example (d : Files) := C75_saved_partial (codec := sampleCodec) (c := false) (fun _ => rfl) 9 (fun _ _ => false) sampleEnv sampleEnv 1 d
  sampleActs (by
    intro x hx
    simp only [sampleActs, List.mem_cons, List.not_mem_nil, or_false] at hx
    rcases hx with rfl | rfl | rfl | rfl
    · exact .inl ⟨_, _, rfl⟩
    · exact .inr ⟨_, _, rfl⟩
    · exact .inl ⟨_, _, rfl⟩
    · exact .inl ⟨_, _, rfl⟩) (by decide) (sample_inLimits sampleCodec) (by decide)
  (fun z es h => (sample_works z es h).1) [(2, some [])] (by decide) sampleEnv 0#8 9 (by decide)

/-- C75, the part that holds: the object that has made an archive opens the same file for reading without closing it first. It is
saved by this, and exactly the files added are read. -/
theorem C75_unclosed_partial (hcodec : Lossless codec) (fuel : Nat) (same : List Byte → List Byte → Bool) (env env' : Env)
    (f : FileId) (d : Files) (acts : List Act) (ho : OnlyAdds acts) (hne : adds acts ≠ [])
    (h : InLimits codec c (firsts [] (adds acts))) (hf : (adds acts).length + 1 ≤ fuel)
    (hw : ∀ z es, addAll codec fuel (openNewWrite c) (adds acts) = .ok (es, z) → Works env'.os1 z.data.length) (stale : Byte)
    (rounds : Nat) (hr : (adds acts).length + 1 ≤ rounds) :
    ∃ o evs,
      run codec fuel same d fresh (.call env (.openNew f c) :: (acts ++ [.call env' (.openRead f)])) = .ok (makingResults codec c acts, o, evs) ∧
      after d evs f = some o.data ∧
      walk fuel o.data stale rounds [] = .ok ((firsts [] (adds acts)).map (fun a => entryName a.path), .false_) ∧
      ∀ a ∈ firsts [] (adds acts), ∀ garbage,
        getFile codec fuel o.data garbage (entryName a.path) = .ok (.noError, some a.content) := by
  have hl := firsts_length (adds acts) []
  rw [List.length_nil, Nat.zero_add] at hl
  have hn := firsts_ne hne
  have hadd := addAll_new fuel (adds acts) h hf hl
  have hw := hw _ _ hadd
  simp only [bytesOf_ne hn] at hw
  have hra := run_adds (c := c) fuel same f acts d [] ho h (by omega)
  have ha := run_append fuel same acts [.call env' (.openRead f)] d _ _ _ _ hra
  have h0 : step codec fuel same env d fresh (.openNew f c) = .ok (.noError, made codec f c [], []) := rfl
  have hfile : after (after d (otherEvs acts)) (save env'.os1 f (archive codec c (firsts [] (adds acts)))) f =
      some (archive codec c (firsts [] (adds acts))) := by
    rw [save_done _ _ _ _ hw.1, put_same, List.take_of_length_le hw.2]
  have h1 : step codec fuel same env' (after d (otherEvs acts)) (made codec f c (firsts [] (adds acts))) (.openRead f) =
      .ok (.noError, ⟨some ⟨some f, true, some (archive codec c (firsts [] (adds acts)))⟩, some f, false, c⟩,
        save env'.os1 f (archive codec c (firsts [] (adds acts)))) := by
    unfold step made
    rw [if_neg hn]
    simp only [Obj.leave, Buf.close, Bool.false_eq_true, if_false, load]
    rw [hfile]
    rfl
  refine ⟨⟨some ⟨some f, true, some (archive codec c (firsts [] (adds acts)))⟩, some f, false, c⟩,
    otherEvs acts ++ save env'.os1 f (archive codec c (firsts [] (adds acts))), ?_, ?_, ?_, ?_⟩
  · rw [run, h0, ok_bind]
    simp only [after_nil]
    rw [ha, run, h1, ok_bind]
    simp only [run, ok_bind]
    rw [makingResults]
    simp
  · rw [after_append]
    exact hfile
  · obtain ⟨z, hz1, hz2⟩ := C04_listing fuel (adds acts) h hf stale rounds hr
    rw [hadd] at hz1
    injection hz1 with hz1; injection hz1 with _ hz1
    rw [← hz1, bytesOf_ne hn, if_neg hne] at hz2
    exact hz2
  · intro a ha garbage
    obtain ⟨z, hz1, hz2⟩ := C03_add_then_read hcodec fuel (adds acts) h hf
    rw [hadd] at hz1
    injection hz1 with hz1; injection hz1 with _ hz1
    have := (hz2 a ha garbage).1
    rw [← hz1, bytesOf_ne hn] at this
    exact this

example (d : Files) := C75_unclosed_partial (codec := sampleCodec) (c := false) (fun _ => rfl) 9 (fun _ _ => false) sampleEnv sampleEnv 1 d
  sampleActs (by
    intro x hx
    simp only [sampleActs, List.mem_cons, List.not_mem_nil, or_false] at hx
    rcases hx with rfl | rfl | rfl | rfl
    · exact .inl ⟨_, _, rfl⟩
    · exact .inr ⟨_, _, rfl⟩
    · exact .inl ⟨_, _, rfl⟩
    · exact .inl ⟨_, _, rfl⟩) (by decide) (sample_inLimits sampleCodec) (by decide)
  (fun z es h => (sample_works z es h).1) 0#8 9 (by decide)

end Verif.Disk
