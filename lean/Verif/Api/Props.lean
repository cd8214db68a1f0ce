import Verif.Api.Spec

/-!
# C60: lists are read with a count and an index
-/

namespace Verif.Api

open Spec

/-- The shape of the getters that keep the promise. -/
def Getter.sound (g : Getter) : Bool :=
  (!g.handle || g.nullCheck) && g.guard == .ge && g.guardOf == g.elemOf && g.countOf == g.elemOf &&
    g.storeOf == none && g.delivers

theorem sound_enumerates (g : Getter) (hg : g.sound = true) (o : Obj α) : Enumerates (g.count o) (g.get o) := by
  simp only [Getter.sound, Bool.and_eq_true, beq_iff_eq, Bool.or_eq_true, Bool.not_eq_true'] at hg
  obtain ⟨⟨⟨⟨⟨h1, h2⟩, h3⟩, h4⟩, h5⟩, h6⟩ := hg
  unfold Enumerates Getter.count
  by_cases hh : (g.handle && !o.isSet) = true
  · rw [if_pos hh]
    intro i
    unfold Getter.get
    rw [if_pos hh]
    rcases h1 with h1 | h1
    · rw [h1] at hh; simp at hh
    · rw [if_pos h1]
  · rw [if_neg hh]
    refine ⟨o.arr g.elemOf, by rw [h4], fun i hi => ?_, fun i hi => ?_⟩
    · unfold Getter.get
      rw [if_neg hh]
      have hr : g.refuses o i = false := by
        simp [Getter.refuses, h2, h3, hi]
      rw [hr, if_neg (by simp), List.getElem?_eq_getElem hi]
      simp [h5, h6]
    · unfold Getter.get
      rw [if_neg hh]
      have hr : g.refuses o i = true := by
        rw [h4] at hi
        simp [Getter.refuses, h2, h3, hi]
      rw [hr, if_pos rfl]

theorem rows_sound : ∀ g ∈ getters, (g.cls, g.fn) ∉ exceptions → (g.cls, g.fn) ∉ paired → g.sound = true := by
  decide +kernel

/-- C60, partly: outside of the lists of exceptions every indexed getter enumerates exactly what the
count getter counts, for every object and every index. -/
theorem C60_partial (g : Getter) (hg : g ∈ getters) (he : (g.cls, g.fn) ∉ exceptions) (hp : (g.cls, g.fn) ∉ paired)
    (o : Obj α) : Enumerates (g.count o) (g.get o) :=
  sound_enumerates g (rows_sound g hg he hp) o

/-- Most rows meet the hypotheses. -/
example : (getters.filter fun g => decide ((g.cls, g.fn) ∉ exceptions ∧ (g.cls, g.fn) ∉ paired)).length = 58 ∧
    getters.length = 69 := by decide +kernel

/-- A wheel with two slots: the count is two, both are found, the third is refused. -/
example : (getters.find? (·.fn == "GetWheelSlotAt")).map (fun g =>
      let o : Obj Nat := ⟨true, fun n => if n = "GetWheelSlotArray" then [7, 8] else []⟩
      (g.count o, g.get o 0, g.get o 1, g.get o 2)) = some (some 2, .value 7, .value 8, .refused) := by
  decide +kernel

/-- The states of a data provider: any entries added to an empty one. -/
inductive ProviderReach (α : Type) : Obj α → Prop where
  | empty (o : Obj α) (h1 : o.arr "fKeyArr" = []) (h2 : o.arr "fDataArr" = []) : ProviderReach α o
  | add (o : Obj α) (k v : α) (h : ProviderReach α o) : ProviderReach α (addEntry o k v)

theorem provider_lengths {o : Obj α} (h : ProviderReach α o) : (o.arr "fKeyArr").length = (o.arr "fDataArr").length := by
  induction h with
  | empty o h1 h2 => rw [h1, h2]
  | add o k v _ ih => simp [addEntry, ih]

theorem paired_provider : ∀ g ∈ getters, (g.cls, g.fn) = ("CSceneDataProviderImpl", "GetValueAt") →
    g = { cls := "CSceneDataProviderImpl", fn := "GetValueAt", handle := true, nullCheck := true, guard := .ge,
          guardOf := "fKeyArr", access := .unchecked, elemOf := "fDataArr", storeOf := none,
          countFn := "GetKeyValueCount", countOf := "fKeyArr", delivers := true } := by
  decide +kernel

/-- C60 for the values of a data provider, after every history of added entries. -/
theorem C60_values (g : Getter) (hg : g ∈ getters) (hn : (g.cls, g.fn) = ("CSceneDataProviderImpl", "GetValueAt"))
    (o : Obj α) (h : ProviderReach α o) : Enumerates (g.count o) (g.get o) := by
  rw [paired_provider g hg hn]
  have hl := provider_lengths h
  cases hs : o.isSet
  · simp [Enumerates, Getter.count, Getter.get, hs]
  · simp only [Enumerates, Getter.count, Getter.get, hs, Getter.refuses]
    refine ⟨o.arr "fDataArr", hl.symm, fun i hi => ?_, fun i hi => ?_⟩
    · rw [List.getElem?_eq_getElem hi]
      simp [hl, hi]
    · simp [hi]

/-- The states of an MVR file object: any number of files opened for reading. -/
inductive FileReach (α : Type) (e : α) : Obj α → Prop where
  | empty (o : Obj α) (h1 : o.arr "fFilesInZip" = []) (h2 : o.arr "fullPathStorage" = []) : FileReach α e o
  | openRead (o : Obj α) (files : List α) (h : FileReach α e o) : FileReach α e (openForRead o e files)

theorem file_lengths {e : α} {o : Obj α} (h : FileReach α e o) :
    (o.arr "fullPathStorage").length = (o.arr "fFilesInZip").length := by
  induction h with
  | empty o h1 h2 => rw [h1, h2]
  | openRead o files _ ih => simp [openForRead]

theorem paired_files : ∀ g ∈ getters, (g.cls, g.fn) = ("CMediaRessourceVectorImpl", "GetAttachedFileCountAt") →
    g = { cls := "CMediaRessourceVectorImpl", fn := "GetAttachedFileCountAt", handle := false, nullCheck := false,
          guard := .ge, guardOf := "fFilesInZip", access := .checked, elemOf := "fFilesInZip",
          storeOf := some "fullPathStorage", countFn := "GetAttachedFileCount", countOf := "fFilesInZip", delivers := true } := by
  decide +kernel

/-- C60 for the attached files of an MVR, after every history of opened files. -/
theorem C60_files (g : Getter) (hg : g ∈ getters)
    (hn : (g.cls, g.fn) = ("CMediaRessourceVectorImpl", "GetAttachedFileCountAt"))
    (e : α) (o : Obj α) (h : FileReach α e o) : Enumerates (g.count o) (g.get o) := by
  rw [paired_files g hg hn]
  have hl := file_lengths h
  simp only [Enumerates, Getter.count, Getter.get, Getter.refuses]
  refine ⟨o.arr "fFilesInZip", rfl, fun i hi => ?_, fun i hi => ?_⟩
  · rw [List.getElem?_eq_getElem hi]
    simp [hl, hi]
  · simp [hi]

/-- Two opened archives with three files: the last text is found at index two. -/
example : ∃ g ∈ getters, (g.cls, g.fn) = ("CMediaRessourceVectorImpl", "GetAttachedFileCountAt") ∧
    g.get (openForRead (openForRead ⟨true, fun _ => []⟩ 0 [5]) 0 [6, 7]) 2 = .value 7 := by decide +kernel

/-- C60 fails: eight of the exceptions accept the index that equals the count, for every object; two
throw through the interface, the others read behind the end of the array. -/
theorem C60_bound_violated :
    ∀ n ∈ exceptions, n ≠ ("CGdtfDmxModeImpl", "GetBreakAt") → ∃ g ∈ getters, (g.cls, g.fn) = n ∧
      ∀ o : Obj α, o.isSet = true → ∃ k, g.count o = some k ∧
        g.get o k = if n.1 = "CSceneObjImpl" then .thrown else .undefined := by
  have key : ∀ n ∈ exceptions, n ≠ ("CGdtfDmxModeImpl", "GetBreakAt") → ∃ g ∈ getters, (g.cls, g.fn) = n ∧
      g.guard = .gt ∧ g.guardOf = g.elemOf ∧ g.countOf = g.elemOf ∧
        g.access = if n.1 = "CSceneObjImpl" then .checked else .unchecked := by decide +kernel
  intro n hn hne
  obtain ⟨g, hg, h1, h2, h3, h4, h5⟩ := key n hn hne
  refine ⟨g, hg, h1, fun o ho => ⟨(o.arr g.elemOf).length, by simp [Getter.count, ho, h4], ?_⟩⟩
  unfold Getter.get
  rw [if_neg (by simp [ho]), if_neg (by simp [Getter.refuses, h2, h3])]
  rw [List.getElem?_eq_none (Nat.le_refl _)]
  simp only [h5]
  by_cases h : n.1 = "CSceneObjImpl" <;> simp [h]

/-- C60, what is left for the exceptions: an index below the count never leaves the array (but see
`C60_lost_violated` for whether the value arrives). -/
theorem C60_below_partial (g : Getter) (hg : g ∈ getters) (he : (g.cls, g.fn) ∈ exceptions)
    (o : Obj α) (ho : o.isSet = true) : ∃ l : List α, g.count o = some l.length ∧
      (∀ i (h : i < l.length), g.get o i = if g.fn = "GetProtocolAt" then .nothing else .value l[i]) ∧
      ∀ i, l.length < i → g.get o i = .refused := by
  have key : ∀ g ∈ getters, (g.cls, g.fn) ∈ exceptions → g.guardOf = g.elemOf ∧ g.countOf = g.elemOf ∧
      g.storeOf = none ∧ g.delivers = !decide (g.fn = "GetProtocolAt") := by decide +kernel
  obtain ⟨h1, h2, h3, h4⟩ := key g hg he
  refine ⟨o.arr g.elemOf, by simp [Getter.count, ho, h2], fun i hi => ?_, fun i hi => ?_⟩
  · unfold Getter.get
    rw [if_neg (by simp [ho])]
    have hr : g.refuses o i = false := by
      unfold Getter.refuses; rw [h1]; cases g.guard <;> simp <;> omega
    rw [hr, if_neg (by simp), List.getElem?_eq_getElem hi]
    simp [h3, h4]
  · unfold Getter.get
    rw [if_neg (by simp [ho])]
    have hr : g.refuses o i = true := by
      unfold Getter.refuses; rw [h1]; cases g.guard <;> simp <;> omega
    rw [hr, if_pos rfl]

/-- C60 fails: the break list of a mode is read through a pointer that is not checked. -/
theorem C60_null_violated : ∃ g ∈ getters, (g.cls, g.fn) = ("CGdtfDmxModeImpl", "GetBreakAt") ∧
    ∀ (o : Obj α) i, o.isSet = false → g.get o i = .undefined := by
  have key : ∃ g ∈ getters, (g.cls, g.fn) = ("CGdtfDmxModeImpl", "GetBreakAt") ∧ g.handle = true ∧ g.nullCheck = false := by
    decide +kernel
  obtain ⟨g, hg, h1, h2, h3⟩ := key
  exact ⟨g, hg, h1, fun o i ho => by simp [Getter.get, h2, h3, ho]⟩

/-- C60 fails: the protocol of a fixture is stored in the parameter, not in what it points to, so that no
protocol ever reaches the caller, who is told of success. -/
theorem C60_lost_violated : ∃ g ∈ getters, (g.cls, g.fn) = ("CSceneObjImpl", "GetProtocolAt") ∧
    ∀ (o : Obj α) i a, g.get o i ≠ .value a := by
  have key : ∃ g ∈ getters, (g.cls, g.fn) = ("CSceneObjImpl", "GetProtocolAt") ∧ g.delivers = false := by decide +kernel
  obtain ⟨g, hg, h1, h2⟩ := key
  refine ⟨g, hg, h1, fun o i a h => ?_⟩
  unfold Getter.get at h
  simp only [h2] at h
  repeat' split at h

  all_goals simp_all

end Verif.Api
