import Verif.Gdtf.SpellLemmas

/-!
# Lemmas: one attribute, in any spelling
-/

namespace Verif.Gdtf

open Spec
open Verif.Lookup (Txt)
open Verif.Str Verif.Real Verif.Text Verif.Dmx Verif.Enum
open Verif.Node (Item Kind kinds getAttr)
open Verif.Mvr.Spec (Num Whole Alike' AnyWord RoundedNum RoundedV upper Spaces)
open Verif.Mvr (atoi_whole atof_num num_rounded num_chars color_means vector_means alike_eq flag_means same_text)

set_option linter.unusedSimpArgs false

/-- The other value of the same type has the same shape. -/
macro "shape" h:ident o:ident : tactic => `(tactic| (cases $o:ident <;> first | (simp [typeOf] at $h:ident; done) | skip))

theorem means_read (F : Fl) (n : Nat) (hn : IsReso n) (cv : Cv) (v old : Val) (t : Txt) (s : List Char) (hs : suits cv v = true)
    (hl : cv ≠ .link) (ht : typeOf old = typeOf v) (hk : Kept n v) (hts : toChars t = s) (hx : v.ctorIdx ≠ 0)
    (h : Means n (formOf cv) v s) : Rounded v (dmxValue F n (dec F cv (some t) old)) := by
  subst hts
  cases v with
  | text u => exact absurd rfl hx
  | link l => have := cv_of hs rfl; exact absurd this hl
  | real x =>
    have := cv_of hs rfl; subst this; shape ht old
    have h : Num x (toChars t) := h
    simp only [dec, Option.getD_some]
    rw [if_neg (num_chars h).1]
    exact num_rounded F h hk
  | int w i =>
    have := cv_int hs rfl; subst this; shape ht old
    rename_i w' j
    have : w' = w := by simpa [typeOf] using ht
    subst this
    have h : Whole i (toChars t) := h
    simp only [dec, Option.getD_some]
    rw [int_means h hk]
    rfl
  | matrix m =>
    have := cv_of hs rfl; subst this; shape ht old
    obtain ⟨k, e, hr⟩ := matrix_means4 F h hk _
    simp only [dec, Option.getD_some]
    rw [e]
    exact hr
  | rotation m =>
    have := cv_of hs rfl; subst this; shape ht old
    obtain ⟨k, e, hr⟩ := rotation_means F h hk _
    simp only [dec, Option.getD_some]
    rw [e]
    exact hr
  | color c =>
    have := cv_of hs rfl; subst this; shape ht old
    obtain ⟨a, b, c', ha, hb, hc, e⟩ := color_means F h white
    simp only [dec, Option.getD_some]
    rw [e]
    exact ⟨num_rounded F ha hk.1, num_rounded F hb hk.2.1, num_rounded F hc hk.2.2⟩
  | colors cs =>
    have := cv_of hs rfl; subst this; shape ht old
    obtain ⟨k, e, hr⟩ := colors_means F h hk
    simp only [dec, Option.getD_some]
    rw [e]
    exact hr
  | point x y =>
    have := cv_of hs rfl; subst this; shape ht old
    obtain ⟨a, b, ha, hb, e⟩ := point_means F h
    simp only [dec, Option.getD_some]
    rw [e]
    exact ⟨num_rounded F ha hk.1, num_rounded F hb hk.2⟩
  | vec v =>
    have := cv_of hs rfl; subst this; shape ht old
    obtain ⟨a, b, c', ha, hb, hc, e⟩ := vector_means F h _
    simp only [dec, Option.getD_some]
    rw [e]
    exact ⟨num_rounded F ha hk.1, num_rounded F hb hk.2.1, num_rounded F hc hk.2.2⟩
  | dmx v =>
    have := cv_dmx hs rfl; subst this; shape ht old
    have h : Channel n v (toChars t) := h
    simp only [dec, Option.getD_some, dmxValue]
    rw [channel_read F hn h]
    rfl
  | high v b =>
    have := cv_high hs rfl; subst this; shape ht old
    simp only [dec, Option.getD_some, dmxValue]
    unfold readDmxNone
    cases b with
    | true =>
      have h : Alike' (toChars t) "None" := h
      rw [if_pos (alike_eq.1 h)]
      rfl
    | false =>
      have h : Channel n v (toChars t) := h
      rw [slash_not_none (channel_slash h), channel_read F hn h]
      rfl
  | raw t => cases hs
  | rawHigh t => cases hs
  | hex v =>
    have := cv_of hs rfl; subst this; shape ht old
    simp only [dec, Option.getD_some]
    rw [hex_means (n := n) h hk]
    rfl
  | uuid u =>
    have := cv_of hs rfl; subst this; shape ht old
    simp only [dec, Option.getD_some]
    rw [uuid_means h hk]
    rfl
  | offset o =>
    have := cv_of hs rfl; subst this; shape ht old
    obtain ⟨k, e⟩ := offset_means (n := n) h hk
    simp only [dec, Option.getD_some]
    rw [e]
    rfl
  | brk i =>
    have := cv_of hs rfl; subst this; shape ht old
    simp only [dec, Option.getD_some]
    rw [break_means (n := n) h hk]
    rfl
  | date d =>
    have := cv_of hs rfl; subst this; shape ht old
    simp only [dec, Option.getD_some]
    rw [date_means (n := n) h hk]
    rfl
  | address a =>
    have := cv_of hs rfl; subst this; shape ht old
    simp only [dec, Option.getD_some]
    rw [address_means h hk.1 hk.2]
    rfl
  | flag b =>
    have := cv_of hs rfl; subst this; shape ht old
    simp only [dec, Option.getD_some]
    rw [flag_means h]
    rfl
  | primitive v =>
    have := cv_of hs rfl; subst this; shape ht old
    simp only [dec, Option.getD_some]
    rw [word_means C18_PrimitiveType (word_primitive v) h.2]
    rfl
  | unit v =>
    have := cv_of hs rfl; subst this; shape ht old
    simp only [dec, Option.getD_some]
    rw [word_means C18_PhysicalUnit (word_unit v) h.2]
    rfl
  | beam v =>
    have := cv_of hs rfl; subst this; shape ht old
    simp only [dec, Option.getD_some]
    rw [word_means C18_BeamType (word_beam v) h.2]
    rfl
  | lamp v =>
    have := cv_of hs rfl; subst this; shape ht old
    simp only [dec, Option.getD_some]
    rw [word_means C18_LampType (word_lamp v) h.2]
    rfl
  | snap v =>
    have := cv_of hs rfl; subst this; shape ht old
    simp only [dec, Option.getD_some]
    rw [word_means C18_DmxSnap (word_snap v) h.2]
    rfl
  | master v =>
    have := cv_of hs rfl; subst this; shape ht old
    simp only [dec, Option.getD_some]
    rw [word_means C18_DmxMaster (word_master v) h.2]
    rfl
  | relation v =>
    have := cv_of hs rfl; subst this; shape ht old
    simp only [dec, Option.getD_some]
    rw [word_means C18_DmxRelationType (word_relation v) h.2]
    rfl
  | sample v =>
    have := cv_of hs rfl; subst this; shape ht old
    simp only [dec, Option.getD_some]
    rw [word_means C18_ColorSample (word_sample v) h.2]
    rfl
  | space v =>
    have := cv_of hs rfl; subst this; shape ht old
    simp only [dec, Option.getD_some]
    rw [word_means C18_ColorSpace (word_space v) h.2]
    rfl
  | interpolation v =>
    have := cv_of hs rfl; subst this; shape ht old
    simp only [dec, Option.getD_some]
    rw [word_means C18_InterpolationTo (word_interpolation v) h.2]
    rfl
  | laser v =>
    have := cv_of hs rfl; subst this; shape ht old
    simp only [dec, Option.getD_some]
    rw [word_means C18_LaserColorType (word_laser v) h.2]
    rfl
  | component v =>
    have := cv_of hs rfl; subst this; shape ht old
    simp only [dec, Option.getD_some]
    rw [word_means C18_ComponentType (word_component v) h.2]
    rfl
  | orientation v =>
    have := cv_of hs rfl; subst this; shape ht old
    simp only [dec, Option.getD_some]
    rw [word_means C18_Orientation (word_orientation v) h.2]
    rfl
  | fuse v =>
    have := cv_of hs rfl; subst this; shape ht old
    simp only [dec, Option.getD_some]
    rw [word_means C18_FuseRating (word_fuse v) h.2]
    rfl
  | truss v =>
    have := cv_of hs rfl; subst this; shape ht old
    simp only [dec, Option.getD_some]
    rw [word_means C18_StructureType (word_truss v) h.2]
    rfl
  | section_ v =>
    have := cv_of hs rfl; subst this; shape ht old
    simp only [dec, Option.getD_some]
    rw [word_means C18_CrossSectionType (word_section_ v) h.2]
    rfl
  | support v =>
    have := cv_of hs rfl; subst this; shape ht old
    simp only [dec, Option.getD_some]
    rw [word_means C18_SupportType (word_support v) h.2]
    rfl
  | subUnit v =>
    have := cv_of hs rfl; subst this; shape ht old
    simp only [dec, Option.getD_some]
    rw [word_means C18_SubPhysicalUnitType (word_subUnit v) h.2]
    rfl
  | canHave v =>
    have := cv_of hs rfl; subst this; shape ht old
    simp only [dec, Option.getD_some]
    rw [word_means C18_CanHaveChildren (word_canHave v) h.2]
    rfl
  | undef => exact absurd hk (by simp [Kept])

end Verif.Gdtf
