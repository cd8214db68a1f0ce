import Verif.Disk.Props

/-!
# Every history of an archive object (C75)
-/

namespace Verif.Disk

open Verif.Zip Verif.Zip.Spec Verif.Disk.Spec

variable {codec : Codec} {c : Bool}

/-- The event is about the file. -/
def Ev.of (f : FileId) (e : Ev) : Prop := e = .create f ∨ (∃ b, e = .byte f b) ∨ e = .sync f

theorem save_of (os : Os) (f : FileId) (data : List Byte) : ∀ e ∈ save os f data, e.of f := by
  intro e he
  unfold save at he
  split at he
  · simp only [List.mem_cons, List.mem_append, List.mem_map] at he
    rcases he with rfl | ⟨b, _, rfl⟩ | rfl | ⟨b, _, rfl⟩
    · exact .inl rfl
    · exact .inr (.inl ⟨b, rfl⟩)
    · exact .inr (.inr rfl)
    · exact .inr (.inl ⟨b, rfl⟩)
  · simp at he

theorem close_of (os : Os) (b : Buf) : ∀ e ∈ b.close os, ∃ f, b.file = some f ∧ e.of f := by
  intro e he
  unfold Buf.close at he
  split at he
  · simp at he
  · split at he
    · rename_i data f h1 h2
      exact ⟨f, h2, save_of os f data e he⟩
    · simp at he

/-- Events about other files leave a file alone. -/
theorem after_away {g : FileId} : ∀ (evs : List Ev) (d : Files), (∀ e ∈ evs, ∃ f, f ≠ g ∧ e.of f) → after d evs g = d g := by
  intro evs
  induction evs with
  | nil => intro d _; rfl
  | cons e t ih =>
    intro d h
    rw [after_cons, ih _ (fun x hx => h x (by simp [hx]))]
    obtain ⟨f, hf, rfl | ⟨b, rfl⟩ | rfl⟩ := h e (by simp)
    · exact put_other _ _ (Ne.symm hf)
    · exact put_other _ _ (Ne.symm hf)
    · rfl

/-- The file is one the object knows of. -/
def Obj.Knows (o : Obj) (f : FileId) : Prop := o.file = some f ∨ ∃ b, o.buf = some b ∧ b.file = some f

theorem leave_of (os : Os) (o : Obj) : ∀ e ∈ o.leave os, ∃ f, o.Knows f ∧ e.of f := by
  intro e he
  unfold Obj.leave at he
  split at he
  · rename_i b hb
    obtain ⟨f, h1, h2⟩ := close_of os b e he
    exact ⟨f, .inr ⟨b, hb, h1⟩, h2⟩
  · simp at he

/-- A call changes only files the object knows of, and afterwards it knows of no more than before and of the file just
opened. -/
theorem step_of {fuel : Nat} {same : List Byte → List Byte → Bool} {env : Env} {d : Files} {o : Obj} {op : Op} {e : Err}
    {o' : Obj} {evs : List Ev} (h : step codec fuel same env d o op = .ok (e, o', evs)) :
    (∀ x ∈ evs, ∃ f, o.Knows f ∧ x.of f) ∧ ∀ f, o'.Knows f → o.Knows f ∨ f ∈ opened [.call env op] := by
  cases op with
  | openRead f =>
    unfold step at h
    injection h with h; injection h with h1 h2; injection h2 with h2 h3
    subst h2 h3
    refine ⟨leave_of _ _, fun g hg => .inr ?_⟩
    rcases hg with hg | ⟨b, hb, hg⟩
    · injection hg with hg; subst hg; simp [opened]
    · injection hb with hb; subst hb; injection hg with hg; subst hg; simp [opened]
  | openMem bytes =>
    unfold step at h
    injection h with h; injection h with h1 h2; injection h2 with h2 h3
    subst h2 h3
    refine ⟨leave_of _ _, fun g hg => .inl ?_⟩
    rcases hg with hg | ⟨b, hb, hg⟩
    · exact .inl hg
    · injection hb with hb; subst hb; cases hg
  | openWrite f =>
    unfold step at h
    injection h with h; injection h with h1 h2; injection h2 with h2 h3
    subst h2 h3
    refine ⟨leave_of _ _, fun g hg => .inr ?_⟩
    rcases hg with hg | ⟨b, hb, hg⟩
    · injection hg with hg; subst hg; simp [opened]
    · injection hb with hb; subst hb; injection hg with hg; subst hg; simp [opened]
  | openNew f c =>
    unfold step at h
    injection h with h; injection h with h1 h2; injection h2 with h2 h3
    subst h2 h3
    refine ⟨leave_of _ _, fun g hg => .inr ?_⟩
    rcases hg with hg | ⟨b, hb, hg⟩
    · injection hg with hg; subst hg; simp [opened]
    · injection hb with hb; subst hb; injection hg with hg; subst hg; simp [opened]
  | close =>
    unfold step at h
    simp only at h
    split at h
    · injection h with h; injection h with h1 h2; injection h2 with h2 h3
      subst h2 h3
      exact ⟨by simp, fun g hg => .inl hg⟩
    · rename_i b hb
      injection h with h; injection h with h1 h2; injection h2 with h2 h3
      subst h2 h3
      refine ⟨fun x hx => ?_, fun g hg => .inl hg⟩
      obtain ⟨f, h1, h2⟩ := close_of _ _ x hx
      exact ⟨f, .inr ⟨b, hb, h1⟩, h2⟩
  | add a =>
    unfold step at h
    simp only at h
    split at h
    · injection h with h; injection h with h1 h2; injection h2 with h2 h3
      subst h2 h3
      exact ⟨by simp, fun g hg => .inl hg⟩
    · rename_i b hb
      split at h
      · injection h with h; injection h with h1 h2; injection h2 with h2 h3
        subst h2 h3
        exact ⟨by simp, fun g hg => .inl hg⟩
      · obtain ⟨⟨e1, z⟩, -, h⟩ := bind_ok h
        simp only at h
        split at h
        · injection h with h; injection h with h1 h2; injection h2 with h2 h3
          subst h2 h3
          exact ⟨by simp, fun g hg => .inl hg⟩
        · obtain ⟨cd, -, h⟩ := bind_ok h
          obtain ⟨ed, -, h⟩ := bind_ok h
          split at h
          · injection h with h; injection h with h1 h2; injection h2 with h2 h3
            subst h2 h3
            refine ⟨by simp, fun g hg => .inl ?_⟩
            rcases hg with hg | ⟨b', hb', hg⟩
            · exact .inl hg
            · injection hb' with hb'; subst hb'; exact .inr ⟨b, hb, hg⟩
          · injection h with h; injection h with h1 h2; injection h2 with h2 h3
            subst h2 h3
            refine ⟨fun x hx => ?_, fun g hg => .inl ?_⟩
            · rcases List.mem_append.1 hx with hx | hx
              · obtain ⟨f, h1, h2⟩ := close_of _ _ x hx
                exact ⟨f, .inr ⟨b, hb, h1⟩, h2⟩
              · obtain ⟨f, h1, h2⟩ := close_of _ _ x hx
                exact ⟨f, .inr ⟨b, hb, h1⟩, h2⟩
            · rcases hg with hg | ⟨b', hb', hg⟩
              · exact .inl hg
              · injection hb' with hb'; subst hb'; exact .inl hg
  | remove path =>
    unfold step at h
    simp only at h
    split at h
    · injection h with h; injection h with h1 h2; injection h2 with h2 h3
      subst h2 h3
      exact ⟨by simp, fun g hg => .inl hg⟩
    · rename_i b hb
      obtain ⟨cpos, -, h⟩ := bind_ok h
      split at h
      · injection h with h; injection h with h1 h2; injection h2 with h2 h3
        subst h2 h3
        exact ⟨by simp, fun g hg => .inl hg⟩
      · obtain ⟨⟨e1, z⟩, -, h⟩ := bind_ok h
        simp only at h
        have hev : ∀ x ∈ b.close env.os1 ++ (Buf.mk o.file false (some z.data)).close env.os2, ∃ f, o.Knows f ∧ x.of f := by
          intro x hx
          rcases List.mem_append.1 hx with hx | hx
          · obtain ⟨f, h1, h2⟩ := close_of _ _ x hx
            exact ⟨f, .inr ⟨b, hb, h1⟩, h2⟩
          · obtain ⟨f, h1, h2⟩ := close_of _ _ x hx
            exact ⟨f, .inl h1, h2⟩
        split at h
        · injection h with h; injection h with h1 h2; injection h2 with h2 h3
          subst h2 h3
          refine ⟨hev, fun g hg => .inl ?_⟩
          rcases hg with hg | ⟨b', hb', hg⟩
          · exact .inl hg
          · injection hb' with hb'; subst hb'; exact .inl hg
        · injection h with h; injection h with h1 h2; injection h2 with h2 h3
          subst h2 h3
          refine ⟨hev, fun g hg => .inl ?_⟩
          rcases hg with hg | ⟨b', hb', hg⟩
          · exact .inl hg
          · injection hb' with hb'; subst hb'; exact .inl hg

theorem others_congr (acts : List Act) : ∀ (d d' : Files) (g : FileId), d g = d' g → others d acts g = others d' acts g := by
  induction acts with
  | nil => intro d d' g h; exact h
  | cons x t ih =>
    intro d d' g h
    cases x with
    | call env op => exact ih d d' g h
    | other f v =>
      refine ih _ _ g ?_
      unfold put
      split
      · rfl
      · exact h

theorem opened_cons (env : Env) (op : Op) (t : List Act) : opened (.call env op :: t) = opened [.call env op] ++ opened t := by
  cases op <;> rfl

theorem run_untouched (fuel : Nat) (same : List Byte → List Byte → Bool) (acts : List Act) :
    ∀ (d : Files) (o : Obj) (es : List Err) (o' : Obj) (evs : List Ev) (g : FileId),
      run codec fuel same d o acts = .ok (es, o', evs) → ¬ o.Knows g → g ∉ opened acts →
      after d evs g = others d acts g := by
  induction acts with
  | nil =>
    intro d o es o' evs g h _ _
    rw [run] at h
    injection h with h; injection h with h1 h2; injection h2 with h2 h3
    subst h3; rfl
  | cons x t ih =>
    intro d o es o' evs g h hk hg
    cases x with
    | other f v =>
      rw [run] at h
      obtain ⟨⟨es1, o1, evs1⟩, h1, h2⟩ := bind_ok h
      injection h2 with h2; injection h2 with h2 h3; injection h3 with h3 h4
      subst h4
      rw [after_cons, Ev.apply, others]
      exact ih _ _ _ _ _ g h1 hk hg
    | call env op =>
      rw [run] at h
      obtain ⟨⟨e0, o0, evs0⟩, h0, h⟩ := bind_ok h
      obtain ⟨⟨es1, o1, evs1⟩, h1, h2⟩ := bind_ok h
      injection h2 with h2; injection h2 with h2 h3; injection h3 with h3 h4
      subst h4
      rw [opened_cons, List.mem_append] at hg
      obtain ⟨hs1, hs2⟩ := step_of h0
      rw [after_append, ih _ _ _ _ _ g h1 (fun hk' => (hs2 g hk').elim hk (fun h' => hg (.inl h'))) (fun h' => hg (.inr h')), others]
      refine others_congr t _ _ g (after_away evs0 d ?_)
      intro e he
      obtain ⟨f, hf, hof⟩ := hs1 e he
      exact ⟨f, fun hfg => hk (hfg ▸ hf), hof⟩

/-- C75, the part that holds: in every history of an archive object — opening, adding, removing, closing in any order,
whatever the operating system and other programs do — a file the object has not opened is changed by other programs
only. -/
theorem C75_untouched_partial (fuel : Nat) (same : List Byte → List Byte → Bool) (acts : List Act) (d : Files)
    (es : List Err) (o : Obj) (evs : List Ev) (h : run codec fuel same d fresh acts = .ok (es, o, evs)) (g : FileId)
    (hg : g ∉ opened acts) : after d evs g = others d acts g := by
  refine run_untouched fuel same acts d fresh es o evs g h ?_ hg
  rintro (h | ⟨b, hb, _⟩)
  · cases h
  · cases hb

example (d : Files) (es : List Err) (o : Obj) (evs : List Ev)
    (h : run sampleCodec 9 (fun _ _ => false) d fresh (making sampleEnv 1 false sampleActs sampleEnv ++
      [.other 2 none, .call sampleEnv (.openRead 3), .other 2 (some [])]) = .ok (es, o, evs)) : after d evs 2 = some [] :=
  C75_untouched_partial 9 _ _ d es o evs h 2 (by decide)

/-- The object has an archive opened for reading, or none. -/
def Obj.Reads (o : Obj) : Prop := o.write = false ∧ ∀ b, o.buf = some b → b.forRead = true

theorem leave_reads {o : Obj} (h : o.Reads) (os : Os) : o.leave os = [] := by
  unfold Obj.leave
  split
  · rename_i b hb
    unfold Buf.close
    rw [if_pos (h.2 b hb)]
  · rfl

theorem run_reading (fuel : Nat) (same : List Byte → List Byte → Bool) (acts : List Act) :
    ∀ (d : Files) (o : Obj), o.Reads → Reading acts →
      ∃ es o', run codec fuel same d o acts = .ok (es, o', otherEvs acts) ∧ o'.Reads := by
  induction acts with
  | nil => intro d o ho _; exact ⟨[], o, rfl, ho⟩
  | cons x t ih =>
    intro d o ho hr
    have hrt : Reading t := fun y hy => hr y (by simp [hy])
    rcases hr x (by simp) with ⟨env, f, rfl⟩ | ⟨env, b, rfl⟩ | ⟨env, rfl⟩ | ⟨env, a, rfl⟩ | ⟨f, v, rfl⟩
    · have h0 : step codec fuel same env d o (.openRead f) = .ok (.noError,
          { o with buf := some ⟨some f, true, some (load d f)⟩, file := some f, write := false }, []) := by
        unfold step; simp only [leave_reads ho, after_nil]
      obtain ⟨es, o', h1, h2⟩ := ih d { o with buf := some ⟨some f, true, some (load d f)⟩, file := some f, write := false }
        ⟨rfl, fun b hb => by injection hb with hb; rw [← hb]⟩ hrt
      refine ⟨.noError :: es, o', ?_, h2⟩
      rw [run, h0, ok_bind]
      simp only [after_nil]
      rw [h1, ok_bind]
      rfl
    · have h0 : step codec fuel same env d o (.openMem b) = .ok (.noError,
          { o with buf := some ⟨none, true, some b⟩, write := false }, []) := by
        unfold step; simp only [leave_reads ho]
      obtain ⟨es, o', h1, h2⟩ := ih d { o with buf := some ⟨none, true, some b⟩, write := false }
        ⟨rfl, fun b hb => by injection hb with hb; rw [← hb]⟩ hrt
      refine ⟨.noError :: es, o', ?_, h2⟩
      rw [run, h0, ok_bind]
      simp only [after_nil]
      rw [h1, ok_bind]
      rfl
    · have h0 : ∃ o1, step codec fuel same env d o .close = .ok (.noError, o1, []) ∧ o1.Reads := by
        unfold step
        simp only
        split
        · exact ⟨o, rfl, ho⟩
        · rename_i b hb
          refine ⟨{ o with write := false }, ?_, ⟨rfl, ho.2⟩⟩
          unfold Buf.close
          rw [if_pos (ho.2 b hb)]
      obtain ⟨o1, h0, hr1⟩ := h0
      obtain ⟨es, o', h1, h2⟩ := ih d o1 hr1 hrt
      refine ⟨.noError :: es, o', ?_, h2⟩
      rw [run, h0, ok_bind]
      simp only [after_nil]
      rw [h1, ok_bind]
      rfl
    · have h0 : step codec fuel same env d o (.add a) = .ok (.notInitialized, o, []) := by
        unfold step
        simp only
        split
        · rfl
        · rw [if_pos ho.1]
      obtain ⟨es, o', h1, h2⟩ := ih d o ho hrt
      refine ⟨.notInitialized :: es, o', ?_, h2⟩
      rw [run, h0, ok_bind]
      simp only [after_nil]
      rw [h1, ok_bind]
      rfl
    · obtain ⟨es, o', h1, h2⟩ := ih (put d f v) o ho hrt
      refine ⟨es, o', ?_, h2⟩
      rw [run, h1, ok_bind]
      rfl

/-- C75, the part that holds: a history in which archives are only opened for reading (and in which files are perhaps
tried to be added) never fails and changes no file at all. -/
theorem C75_reading_partial (fuel : Nat) (same : List Byte → List Byte → Bool) (acts : List Act) (d : Files)
    (hr : Reading acts) :
    ∃ es o evs, run codec fuel same d fresh acts = .ok (es, o, evs) ∧ after d evs = others d acts := by
  obtain ⟨es, o, h1, _⟩ := run_reading (codec := codec) fuel same acts d fresh ⟨rfl, fun b hb => by cases hb⟩ hr
  exact ⟨es, o, _, h1, after_others acts d⟩

example (d : Files) : ∃ es o evs, run sampleCodec 9 (fun _ _ => false) d fresh
      [.call sampleEnv (.openRead 1), .other 1 none, .call sampleEnv .close, .call sampleEnv (.openMem [1#8])] = .ok (es, o, evs) ∧
    after d evs = put d 1 none :=
  C75_reading_partial 9 _ _ d (by
    intro x hx
    simp only [List.mem_cons, List.not_mem_nil, or_false] at hx
    rcases hx with rfl | rfl | rfl | rfl
    · exact .inl ⟨_, _, rfl⟩
    · exact .inr (.inr (.inr (.inr ⟨_, _, rfl⟩)))
    · exact .inr (.inr (.inl ⟨_, rfl⟩))
    · exact .inr (.inl ⟨_, _, rfl⟩))

/-! ## Violations -/

/-- C75 is violated: an archive has been made and closed; another program then replaces or deletes the file; when the
same object is used to open any archive for reading, the old content is written to the file again. -/
theorem C75_reopen_violated (fuel : Nat) (same : List Byte → List Byte → Bool) (env env' env2 : Env) (f g : FileId)
    (d : Files) (l : List (Env × Add)) (hne : l ≠ []) (h : InLimits codec c (firsts [] (l.map (·.2))))
    (hf : l.length + 1 ≤ fuel) (v : Option (List Byte)) :
    ∃ z o evs, addAll codec fuel (openNewWrite c) (l.map (·.2)) = .ok (results codec c [] (l.map (·.2)), z) ∧
      run codec fuel same d fresh (making env f c (adding l) env' ++ [.other f v, .call env2 (.openRead g)]) =
        .ok (makingResults codec c (adding l) ++ [.noError], o, evs) ∧
      (Works env2.os1 z.data.length → after d evs f = some z.data) := by
  obtain ⟨h1, h2⟩ := making_run (c := c) fuel same env env' f d l hne h hf
  have hn : firsts [] (l.map (·.2)) ≠ [] := firsts_ne (by simpa using hne)
  have ha := run_append fuel same _ [.other f v, .call env2 (.openRead g)] d _ _ _ _ h2
  rw [run, run] at ha
  have hl : ({ made codec f c (firsts [] (l.map (·.2))) with write := false } : Obj).leave env2.os1 =
      save env2.os1 f (archive codec c (firsts [] (l.map (·.2)))) := by
    unfold made; rw [if_neg hn]; rfl
  unfold step at ha
  simp only [ok_bind, run, hl] at ha
  refine ⟨_, _, _, h1, ha, fun hw => ?_⟩
  rw [after_append, after_cons, after_append, save_done _ _ _ _ hw.1, after_nil, put_same, List.take_of_length_le hw.2]

/-- The file has been deleted; it is there again. -/
example (d : Files) : ∃ z o evs, run sampleCodec 9 (fun _ _ => false) d fresh
      (making sampleEnv 1 false (adding sampleList) sampleEnv ++ [.other 1 none, .call sampleEnv (.openRead 2)]) =
      .ok ([.noError, .noError, .noError, .invalidArg, .noError, .noError], o, evs) ∧ after d evs 1 = some z := by
  obtain ⟨z, o, evs, h1, h2, h3⟩ := C75_reopen_violated 9 (fun _ _ => false) sampleEnv sampleEnv sampleEnv 1 2 d sampleList
    (by decide) sample_limits (by decide) none
  exact ⟨z.data, o, evs, h2, h3 (sample_works z _ h1).1⟩

/-- C75 is violated: an archive opened anew and closed without any file leaves the old archive in the file. -/
theorem C75_empty_violated (fuel : Nat) (same : List Byte → List Byte → Bool) (env env' : Env) (f : FileId) (d : Files) :
    ∃ o, run codec fuel same d fresh [.call env (.openNew f c), .call env' .close] =
      .ok ([.noError, .noError], o, []) := ⟨_, rfl⟩

/-- C75 is violated: opening an archive with `OpenWrite` to add files to it starts from nothing, whatever the file
holds: it is the same as making a new (compressed) archive. -/
theorem C75_openWrite_violated (fuel : Nat) (same : List Byte → List Byte → Bool) (env env' : Env) (f : FileId) (d : Files)
    (l : List (Env × Add)) :
    run codec fuel same d fresh (.call env (.openWrite f) :: (adding l ++ [.call env' .close])) =
      run codec fuel same d fresh (making env f true (adding l) env') := rfl

/-- C75 is violated: opening a file that does not exist for reading succeeds. -/
theorem C75_missing_violated (fuel : Nat) (same : List Byte → List Byte → Bool) (env : Env) (f : FileId) (d : Files)
    (hd : d f = none) : ∃ o, run codec fuel same d fresh [.call env (.openRead f)] = .ok ([.noError], o, []) ∧ o.data = [] := by
  refine ⟨_, rfl, ?_⟩
  show load (after d []) f = []
  rw [after_nil, load, hd]
  rfl

theorem removeFile_reading {same : List Byte → List Byte → Bool} {fuel : Nat} {data : List Byte} {c1 c2 : Bool} {stale : Byte}
    {garbage : FileInfo} {path : List Byte} {r : Err × Zip}
    (h : removeFile same fuel ⟨data, true, c1⟩ stale garbage path = .ok r) :
    removeFile same fuel ⟨data, false, c2⟩ stale garbage path = .ok (.noError, ⟨data, false, c2⟩) := by
  unfold removeFile at h ⊢
  obtain ⟨cpos, e, h⟩ := bind_ok h
  simp only at e h ⊢
  rw [e, ok_bind]
  split at h
  · rename_i hc
    rw [if_pos hc]
  · rename_i hc
    rw [if_neg hc]
    obtain ⟨x1, e1, h⟩ := bind_ok h
    obtain ⟨x2, e2, h⟩ := bind_ok h
    obtain ⟨x3, e3, h⟩ := bind_ok h
    obtain ⟨x4, e4, h⟩ := bind_ok h
    obtain ⟨x5, e5, h⟩ := bind_ok h
    obtain ⟨x6, e6, h⟩ := bind_ok h
    obtain ⟨x7, e7, h⟩ := bind_ok h
    obtain ⟨ai, e8, h⟩ := bind_ok h
    rw [e1, ok_bind]
    try simp only at e2 ⊢
    rw [e2, ok_bind]
    try simp only at e3 ⊢
    rw [e3, ok_bind]
    try simp only at e4 ⊢
    rw [e4, ok_bind]
    try simp only at e5 ⊢
    rw [e5, ok_bind]
    try simp only at e6 ⊢
    rw [e6, ok_bind]
    try simp only at e7 ⊢
    rw [e7, ok_bind]
    try simp only at e8 ⊢
    rw [e8, ok_bind]
    cases ai with
    | none => exact absurd h (by simp)
    | some ai =>
      obtain ⟨x9, e9, h⟩ := bind_ok h
      obtain ⟨x10, e10, h⟩ := bind_ok h
      obtain ⟨x11, e11, h⟩ := bind_ok h
      obtain ⟨x12, e12, h⟩ := bind_ok h
      simp only
      rw [e9, ok_bind]
      try simp only at e10 ⊢
      rw [e10, ok_bind]
      try simp only at e11 ⊢
      rw [e11, ok_bind, e12, ok_bind]
      rfl

/-- Removing the last file of an archive opened for reading, as a call. -/
theorem step_remove_reading (fuel : Nat) (same : List Byte → List Byte → Bool) (env : Env) (f : FileId) (D : Files)
    (as : List Add) (a : Add) (h : Limits codec c (as ++ [a])) (hn : Names (as ++ [a])) (hf : as.length + 2 ≤ fuel)
    (b : Buf) (hb : b.forRead = true) (hbd : b.bytes = some (archive codec c (as ++ [a]))) (cc : Bool) :
    ∃ o, step codec fuel same env D ⟨some b, some f, false, cc⟩ (.remove (normPath a.path)) =
      .ok (.noError, o, save env.os2 f (archive codec c (as ++ [a]))) := by
  obtain ⟨mid, n, s, hr, -⟩ := removeFile_last h hn hf same env.stale env.garbage
  have hne : ∀ x ∈ as, normPath x.path ≠ normPath a.path := fun x hx => (List.pairwise_append.1 hn).2.2 x hx a (by simp)
  have hcp := position_found h (fuel := fuel) (by omega) hne
  have hp := locals_pos (codec := codec) (c := c) (as := as ++ [a]) (by simp)
  have hd : (Obj.mk (some b) (some f) false cc).data = archive codec c (as ++ [a]) := by
    unfold Obj.data; simp only [Option.bind_some, hbd, Option.getD_some]
  have hz : (Obj.mk (some b) (some f) false cc).zip = ⟨archive codec c (as ++ [a]), false, cc⟩ := by
    unfold Obj.zip; rw [hd]
  unfold step
  simp only [hd, hz]
  rw [hcp, ok_bind, if_neg (by omega), removeFile_reading hr, ok_bind]
  simp only
  have e1 : b.close env.os1 = [] := by unfold Buf.close; rw [if_pos hb]
  rw [e1, List.nil_append]
  rw [if_neg (by decide)]
  exact ⟨_, rfl⟩

/-- C75 is violated: removing a file from an archive opened for reading — which has no effect on what the archive holds —
writes the archive to the file, over whatever another program has put there in the meantime. -/
theorem C75_remove_reading_violated (fuel : Nat) (same : List Byte → List Byte → Bool) (env env2 : Env) (f : FileId)
    (d : Files) (as : List Add) (a : Add) (h : InLimits codec c (as ++ [a])) (hf : as.length + 2 ≤ fuel)
    (hn : ((as ++ [a]).map (fun x => entryName x.path)).Nodup) (v : Option (List Byte)) :
    ∃ z, addAll codec fuel (openNewWrite c) (as ++ [a]) = .ok (results codec c [] (as ++ [a]), z) ∧
      (d f = some z.data → ∃ o evs,
        run codec fuel same d fresh [.call env (.openRead f), .other f v, .call env2 (.remove (entryName a.path))] =
          .ok ([.noError, .noError], o, evs) ∧
        (Works env2.os2 z.data.length → after d evs f = some z.data)) := by
  have hnames : Names (as ++ [a]) := by rw [List.Nodup, List.pairwise_map] at hn; exact hn
  have hfi : firsts [] (as ++ [a]) = as ++ [a] := firsts_all _ [] hnames
  have hadd := addAll_eq (codec := codec) (c := c) fuel (as ++ [a]) [] (by rw [hfi]; exact h) (by rw [hfi]; simp; omega)
  rw [hfi, bytesOf_ne (as := as ++ [a]) (by simp)] at hadd
  refine ⟨_, hadd, fun hd => ?_⟩
  simp only at hd
  have h0 : step codec fuel same env d fresh (.openRead f) = .ok (.noError,
      ⟨some ⟨some f, true, some (archive codec c (as ++ [a]))⟩, some f, false, true⟩, []) := by
    show Except.ok (Err.noError, Obj.mk (some ⟨some f, true, some (load (after d []) f)⟩) (some f) false true, []) = _
    rw [after_nil, load, hd]; rfl
  obtain ⟨o, h1⟩ := step_remove_reading fuel same env2 f (put d f v) as a h.limits hnames hf
    ⟨some f, true, some (archive codec c (as ++ [a]))⟩ rfl rfl true
  have hr : run codec fuel same d fresh [.call env (.openRead f), .other f v, .call env2 (.remove (entryName a.path))] =
      .ok ([.noError, .noError], o, .other f v :: (save env2.os2 f (archive codec c (as ++ [a])) ++ [])) := by
    rw [run, h0, ok_bind]
    simp only [after_nil]
    rw [run, run, entryName_eq, h1, ok_bind]
    simp only [run, ok_bind]
    rfl
  refine ⟨_, _, hr, fun hw => ?_⟩
  rw [List.append_nil, after_cons, save_done _ _ _ _ hw.1, put_same, List.take_of_length_le hw.2]

/-- C75 is violated: an object that has had a file opened, then an archive in memory, writes the archive in memory over
the file when a file is removed from it. -/
theorem C75_memory_violated (fuel : Nat) (same : List Byte → List Byte → Bool) (env env1 env2 : Env) (f : FileId)
    (d : Files) (as : List Add) (a : Add) (h : InLimits codec c (as ++ [a])) (hf : as.length + 2 ≤ fuel)
    (hn : ((as ++ [a]).map (fun x => entryName x.path)).Nodup) :
    ∃ z, addAll codec fuel (openNewWrite c) (as ++ [a]) = .ok (results codec c [] (as ++ [a]), z) ∧
      ∃ o evs,
        run codec fuel same d fresh [.call env (.openRead f), .call env1 (.openMem z.data),
          .call env2 (.remove (entryName a.path))] = .ok ([.noError, .noError, .noError], o, evs) ∧
        (Works env2.os2 z.data.length → after d evs f = some z.data) := by
  have hnames : Names (as ++ [a]) := by rw [List.Nodup, List.pairwise_map] at hn; exact hn
  have hfi : firsts [] (as ++ [a]) = as ++ [a] := firsts_all _ [] hnames
  have hadd := addAll_eq (codec := codec) (c := c) fuel (as ++ [a]) [] (by rw [hfi]; exact h) (by rw [hfi]; simp; omega)
  rw [hfi, bytesOf_ne (as := as ++ [a]) (by simp)] at hadd
  refine ⟨_, hadd, ?_⟩
  simp only
  obtain ⟨o, h1⟩ := step_remove_reading fuel same env2 f d as a h.limits hnames hf
    ⟨none, true, some (archive codec c (as ++ [a]))⟩ rfl rfl true
  have h0 : step codec fuel same env d fresh (.openRead f) = .ok (.noError,
      ⟨some ⟨some f, true, some (load d f)⟩, some f, false, true⟩, []) := rfl
  have h2 : step codec fuel same env1 d ⟨some ⟨some f, true, some (load d f)⟩, some f, false, true⟩
      (.openMem (archive codec c (as ++ [a]))) = .ok (.noError,
      ⟨some ⟨none, true, some (archive codec c (as ++ [a]))⟩, some f, false, true⟩, []) := rfl
  have hr : run codec fuel same d fresh [.call env (.openRead f), .call env1 (.openMem (archive codec c (as ++ [a]))),
      .call env2 (.remove (entryName a.path))] =
      .ok ([.noError, .noError, .noError], o, save env2.os2 f (archive codec c (as ++ [a])) ++ []) := by
    rw [run, h0, ok_bind]
    simp only [after_nil]
    rw [run, h2, ok_bind]
    simp only [after_nil]
    rw [run, entryName_eq, h1, ok_bind]
    simp only [run, ok_bind]
    rfl
  refine ⟨_, _, hr, fun hw => ?_⟩
  rw [List.append_nil, save_done _ _ _ _ hw.1, put_same, List.take_of_length_le hw.2]

example (d : Files) := C75_remove_reading_violated (codec := sampleCodec) (c := false) 9 (fun _ _ => false) sampleEnv sampleEnv 1 d
  [⟨[0x61#8], [1#8, 2#8, 3#8], 7, 1, 2⟩] ⟨[0x62#8, 0x5C#8, 0x63#8], [4#8], 9, 1, 2⟩ (sample_inLimits sampleCodec) (by decide)
  (by decide) none

example (d : Files) := C75_memory_violated (codec := sampleCodec) (c := false) 9 (fun _ _ => false) sampleEnv sampleEnv sampleEnv 1 d
  [⟨[0x61#8], [1#8, 2#8, 3#8], 7, 1, 2⟩] ⟨[0x62#8, 0x5C#8, 0x63#8], [4#8], 9, 1, 2⟩ (sample_inLimits sampleCodec) (by decide)
  (by decide)

end Verif.Disk
