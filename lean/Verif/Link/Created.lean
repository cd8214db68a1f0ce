import Verif.Link.Masters

/-!
# C69: the substitute attribute
-/

namespace Verif.Link

open Lookup Lookup.Spec Spec

/-- A feature of the groups, named by group and name. -/
def Holds (gs : List (Txt × List Named)) (x : Named) : Prop := ∃ g ∈ gs, ∃ y ∈ g.2, x = ⟨y.id, g.1 ++ lit "." ++ y.ref⟩

/-- The text is "Control.Control" up to case, made of a group and a feature. -/
theorem sameName_append {a b c d : Txt} (h1 : SameName a c) (h2 : SameName b d) : SameName (a ++ b) (c ++ d) := by
  refine ⟨by simp [h1.1, h2.1], ?_⟩
  intro i x y hx hy
  by_cases hi : i < a.length
  · rw [List.getElem?_append_left hi] at hx
    rw [List.getElem?_append_left (h1.1 ▸ hi)] at hy
    exact h1.2 i x y hx hy
  · rw [List.getElem?_append_right (by omega)] at hx
    rw [List.getElem?_append_right (by have := h1.1; omega)] at hy
    rw [h1.1] at hx
    exact h2.2 _ x y hx hy

theorem controlFeature_holds (fresh : Nat) (g : Txt × List Named) (hg : SameName g.1 (lit "Control")) :
    (∃ y ∈ (controlFeature fresh g).1.2, (controlFeature fresh g).2 = ⟨y.id, (controlFeature fresh g).1.1 ++ lit "." ++ y.ref⟩) ∧
    SameName (controlFeature fresh g).2.ref (lit "Control.Control") ∧ (controlFeature fresh g).1.1 = g.1 := by
  have e : lit "Control.Control" = lit "Control" ++ lit "." ++ lit "Control" := by decide
  unfold controlFeature
  cases hs : scan g.2 (lit "Control") with
  | none =>
    refine ⟨⟨⟨fresh, lit "Control"⟩, by simp, rfl⟩, ?_, rfl⟩
    rw [e]
    exact sameName_append (sameName_append hg (SameName.refl _)) (SameName.refl _)
  | some x =>
    have hf := scan_first g.2 (lit "Control")
    rw [hs] at hf
    obtain ⟨pre, post, hl, hn, -⟩ := hf
    refine ⟨⟨x, by rw [hl]; simp, rfl⟩, ?_, rfl⟩
    rw [e]
    exact sameName_append (sameName_append hg (SameName.refl _)) hn

theorem controlGroup_holds (fresh : Nat) (gs : List (Txt × List Named)) :
    Holds (controlGroup fresh gs).1 (controlGroup fresh gs).2 ∧ SameName (controlGroup fresh gs).2.ref (lit "Control.Control") := by
  induction gs with
  | nil =>
    obtain ⟨⟨y, hy, he⟩, hs, -⟩ := controlFeature_holds fresh (lit "Control", []) (SameName.refl _)
    exact ⟨⟨_, by unfold controlGroup; exact List.mem_singleton.2 rfl, y, hy, he⟩, hs⟩
  | cons g gs ih =>
    unfold controlGroup
    split
    · rename_i hg
      obtain ⟨⟨y, hy, he⟩, hs, -⟩ := controlFeature_holds fresh g ((eqNoCase_iff _ _).1 hg)
      exact ⟨⟨_, List.mem_cons_self, y, hy, he⟩, hs⟩
    · obtain ⟨⟨k, hk, y, hy, he⟩, hs⟩ := ih
      exact ⟨⟨k, List.mem_cons_of_mem _ hk, y, hy, he⟩, hs⟩

/-- What is known about the attributes that were created. -/
def CreatedOk (s : St) : Prop :=
  (s.created = [] ∨ s.attrs.noFeature ≠ none ∧ ∃ i x, s.created = [⟨⟨i, noFeatureText⟩, [], none, some x, none⟩] ∧
    Holds s.features x ∧ SameName x.ref (lit "Control.Control"))

theorem createdOk_getAttr (T : Table Named) (s : St) (t : Txt) (h : CreatedOk s) : CreatedOk (s.getAttr T t).1 := by
  unfold St.getAttr
  simp only
  split
  · rename_i hc
    simp only [Bool.and_eq_true, Option.isNone_iff_eq_none] at hc
    have h0 : s.created = [] := by
      rcases h with h | h
      · exact h
      · exact absurd hc.1 h.1
    right
    have := controlGroup_holds (s.next + 1) s.features
    exact ⟨by intro e; rw [e] at hc; simp at hc, _, _, by rw [h0]; rfl, this⟩
  · rcases h with h | ⟨h1, h2⟩
    · exact .inl h
    · exact .inr ⟨getByRef_noFeature s.attrs T s.next t h1, h2⟩

/-- **C69**, the substitute: the attributes of the description stay as they are and in their order; at most one attribute is added. It is called
"NoFeature", has the feature "Control.Control" of the fixture and no other link. -/
theorem C69_substitute (W : Doc) (T : Table Named) (n : Nat) (F : Mem) (errs : List Err) (h : resolve T n W = some (F, errs)) :
    ∃ created, (F.attrs.map fun a => (a.me, a.units)) = (W.attrs.map fun a => (a.me, a.units)) ++ created.map (fun a => (a.me, a.units)) ∧
      created <:+ F.attrs ∧ created.length ≤ 1 ∧
      ∀ a ∈ created, a.me.ref = lit "NoFeature" ∧ a.units = [] ∧ a.group = none ∧ a.main = none ∧
        ∃ x ∈ features F, a.feature = some x ∧ SameName x.ref (lit "Control.Control") := by
  unfold resolve at h
  simp only at h
  cases h1 : thread (resolveMode W.pool T) ⟨W.pool.attrState T, n, [], W.features⟩ W.modes with
  | none => rw [h1] at h; simp at h
  | some ms =>
    obtain ⟨s1, ys1, es1⟩ := ms
    rw [h1, Option.bind_some] at h
    cases h2 : thread (masterMode T) () ys1 with
    | none => simp only [h2] at h; simp at h
    | some mm =>
      obtain ⟨s2, ys2, es2⟩ := mm
      simp only [h2, Option.bind_some] at h
      cases h3 : thread (resolveAttr T W.groups) s1 W.attrs with
      | none => simp only [h3] at h; simp at h
      | some as =>
        obtain ⟨s3, ys3, es3⟩ := as
        simp only [h3, Option.map_some, Option.some.injEq, Prod.mk.injEq] at h
        obtain ⟨rfl, rfl⟩ := h
        have hfact : AttrFact T (Code.modeMaster, 0) CreatedOk (fun _ => True) (fun _ => False) :=
          ⟨fun s t hs _ => createdOk_getAttr T s t hs, fun h => by simp at h⟩
        have hP := (thread_errs CreatedOk (Code.modeMaster, 0) _ W.modes (fun m _ s s' y es hp hr =>
            mode_errs hfact (by simp) (by simp) m
              (fun _ _ _ _ => ⟨trivial, fun _ _ => trivial⟩) s s' y es hp hr) _ _ _ _ (.inl rfl) h1).1
        have hlen := thread_length (fun (x : Attr Txt) (y : Attr Ptr) => (y.me, y.units) = (x.me, x.units)) (fun a s s' y es hr => by
          unfold resolveAttr at hr
          simp only at hr
          split at hr
          · simp only [Option.some.injEq, Prod.mk.injEq] at hr
            obtain ⟨-, rfl, -⟩ := hr
            rfl
          · cases hm : resolveMain s T a.me.id a.main with
            | none => rw [hm] at hr; simp at hr
            | some m =>
              rw [hm] at hr
              simp only [Option.map_some, Option.some.injEq, Prod.mk.injEq] at hr
              obtain ⟨-, rfl, -⟩ := hr
              rfl) W.attrs s1 s3 ys3 es3 h3
        refine ⟨s1.created, ?_, List.suffix_append _ _, ?_, ?_⟩
        · simp only [List.map_append]
          rw [map_of_index hlen.1 hlen.2]
        · rcases hP with e | ⟨-, i, x, e, -⟩ <;> simp [e]
        · intro a ha
          rcases hP with e | ⟨-, i, x, e, ⟨g, hg, y, hy, hx⟩, hs⟩
          · rw [e] at ha; cases ha
          · rw [e, List.mem_singleton] at ha
            subst ha
            refine ⟨rfl, rfl, rfl, rfl, x, ?_, rfl, hs⟩
            unfold features
            exact List.mem_flatMap.2 ⟨g, hg, List.mem_map.2 ⟨y, hy, hx.symm⟩⟩

end Verif.Link
