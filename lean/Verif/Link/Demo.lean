import Verif.Link.Props

/-!
# A concrete consistent fixture
-/

namespace Verif.Link

open Lookup Lookup.Spec Spec

instance (s t : Txt) : Decidable (SameName s t) := decidable_of_iff _ (eqNoCase_iff s t)

instance (l : List Named) : Decidable (Unique l) := inferInstanceAs (Decidable (_ ∧ _))

instance (l : List Named) (p : Ptr) : Decidable (Into l p) := inferInstanceAs (Decidable (∃ x ∈ l, p = some x))

instance (l : List Named) (p : Ptr) : Decidable (To l p) :=
  match p with
  | none => .isTrue (by intro x h; cases h)
  | some x => decidable_of_iff (x ∈ l) ⟨fun h y e => by cases e; exact h, fun h => h x rfl⟩

instance (l : List Nat) (p : Option Nat) : Decidable (ToId l p) :=
  match p with
  | none => .isTrue (by intro x h; cases h)
  | some x => decidable_of_iff (x ∈ l) ⟨fun h y e => by cases e; exact h, fun h => h x rfl⟩

instance (F : Mem) (x : Func Ptr Master) : Decidable (FnOk F x) :=
  decidable_of_iff (Into (F.attrs.map (·.me)) x.attr ∧ To (F.wheels.map (·.1)) x.wheel ∧ To F.emitters x.emitter ∧
      To F.filters x.filter ∧ To F.spaces x.space ∧ To F.gamuts x.gamut ∧ To F.profiles x.profile ∧
      ∀ s ∈ x.subs, To (F.attrs.flatMap (·.units)) s.unit ∧ To F.profiles s.profile)
    ⟨fun h => ⟨h.1, h.2.1, h.2.2.1, h.2.2.2.1, h.2.2.2.2.1, h.2.2.2.2.2.1, h.2.2.2.2.2.2.1, h.2.2.2.2.2.2.2⟩,
     fun h => ⟨h.attr, h.wheel, h.emitter, h.filter, h.space, h.gamut, h.profile, h.subs⟩⟩

/-- A pan function with a mode master. -/
def panFast (m : Master) : Func Ptr Master :=
  ⟨102, lit "Fast", some ⟨2, lit "Pan"⟩, none, some ⟨42, lit "LED"⟩, some ⟨41, lit "Red"⟩, none, none, some ⟨45, lit "Curve"⟩, m,
    [⟨some ⟨6, lit "Placement"⟩, some ⟨45, lit "Curve"⟩⟩]⟩

/-- A tilt function with a wheel, a colour space and a gamut. -/
def tiltSpin : Func Ptr Master :=
  ⟨202, lit "Spin", some ⟨3, lit "Tilt"⟩, some ⟨40, lit "Gobo"⟩, none, none, some ⟨43, lit "sRGB"⟩, some ⟨44, lit "Wide"⟩, none,
    .function 102, []⟩

/-- A moving head with two channels, a geometry reference, a lamp, a relation and a macro; the function of the first channel has
the second channel as mode master and the other way round. -/
def demo : Mem where
  groups := [⟨1, lit "PanTilt"⟩]
  features := [(lit "Position", [⟨4, lit "PanTilt"⟩, ⟨5, lit "XYZ"⟩])]
  attrs := [⟨⟨2, lit "Pan"⟩, [⟨6, lit "Placement"⟩], some ⟨1, lit "PanTilt"⟩, some ⟨4, lit "Position.PanTilt"⟩, none⟩,
            ⟨⟨3, lit "Tilt"⟩, [], some ⟨1, lit "PanTilt"⟩, some ⟨5, lit "Position.XYZ"⟩, some ⟨2, lit "Pan"⟩⟩]
  wheels := [(⟨40, lit "Gobo"⟩, [some ⟨41, lit "Red"⟩, none])]
  models := [⟨46, lit "Body"⟩]
  emitters := [⟨42, lit "LED"⟩]
  filters := [⟨41, lit "Red"⟩]
  connectors := []
  spaces := [⟨43, lit "sRGB"⟩]
  gamuts := [⟨44, lit "Wide"⟩]
  profiles := [⟨45, lit "Curve"⟩]
  geos := [.node ⟨50, lit "Base"⟩ (some ⟨46, lit "Body"⟩) .plain
            [.node ⟨51, lit "Head"⟩ none (.lamp (some ⟨42, lit "LED"⟩)) [], .node ⟨52, lit "Copy"⟩ none (.reference (some ⟨53, lit "Pixel"⟩)) []],
           .node ⟨53, lit "Pixel"⟩ none (.wiring [some ⟨51, lit "Head"⟩]) []]
  modes := [⟨⟨60, lit "Basic"⟩, some ⟨50, lit "Base"⟩,
     [⟨100, [], some ⟨51, lit "Head"⟩, some 102, [⟨101, [], some ⟨2, lit "Pan"⟩, [panFast (.channel 200)]⟩]⟩,
      ⟨200, [], some ⟨51, lit "Head"⟩, some 202, [⟨201, [], some ⟨3, lit "Tilt"⟩, [tiltSpin]⟩]⟩],
     [⟨some 100, some 202⟩], [⟨some 102, [(300, some 100), (301, some 200)], [some 202]⟩]⟩]
  persons := [(70, some ⟨60, lit "Basic"⟩)]

theorem demo_nodes : nodes demo.geos =
    [(⟨50, lit "Base"⟩, some ⟨46, lit "Body"⟩, .plain), (⟨51, lit "Head"⟩, none, .lamp (some ⟨42, lit "LED"⟩)),
     (⟨52, lit "Copy"⟩, none, .reference (some ⟨53, lit "Pixel"⟩)), (⟨53, lit "Pixel"⟩, none, .wiring [some ⟨51, lit "Head"⟩])] := by
  simp [demo, nodes]

theorem demo_consistent : Consistent demo := by
  have hn := demo_nodes
  have hg : geometries demo = [⟨50, lit "Base"⟩, ⟨51, lit "Head"⟩, ⟨52, lit "Copy"⟩, ⟨53, lit "Pixel"⟩] := by
    unfold geometries; rw [hn]; rfl
  refine ⟨by decide +kernel, by decide +kernel, by decide +kernel, by decide +kernel, by decide +kernel, by decide +kernel,
    by decide +kernel, by decide +kernel, by decide +kernel, by decide +kernel, by decide +kernel, ?_, by decide +kernel,
    by decide +kernel, by decide +kernel, ?_, ?_, by decide +kernel⟩
  · rw [hg]; decide +kernel
  · rw [hn]
    simp only [List.mem_cons, List.not_mem_nil, or_false, forall_eq_or_imp, forall_eq, OwnOk, hg]
    decide +kernel
  · intro m hm
    simp only [demo, List.mem_singleton] at hm
    subst hm
    refine ⟨by decide +kernel, ?_, ⟨by decide +kernel, by decide +kernel, ?_, by decide +kernel, by decide +kernel⟩, by decide +kernel,
      ?_, by decide +kernel, by decide +kernel⟩
    · intro c hc
      simp only [List.mem_cons, List.not_mem_nil, or_false] at hc
      rcases hc with rfl | rfl <;> exact ⟨by rw [hg]; decide +kernel, by decide +kernel, by decide +kernel, by decide +kernel,
        by decide +kernel, by decide +kernel, by decide +kernel⟩
    · intro c hc l hl i j f g hij hf hg' _
      simp only [List.map_cons, List.map_nil, List.mem_cons, List.not_mem_nil, or_false] at hc
      rcases hc with rfl | rfl <;>
      · simp only [Chan.toCh, Logical.toLc, List.map_cons, List.map_nil, List.mem_singleton] at hl
        subst hl
        have hj : j < 1 := (List.getElem?_eq_some_iff.1 hg').1
        omega
    · intro c hc l hl x hx
      simp only [List.mem_cons, List.not_mem_nil, or_false] at hc
      rcases hc with rfl | rfl <;>
      · simp only [List.mem_singleton] at hl
        subst hl
        simp only [List.mem_singleton] at hx
        subst hx
        refine ⟨?_, ?_⟩ <;> intro i hi <;> simp only [panFast, tiltSpin, Master.channel.injEq, Master.function.injEq, reduceCtorEq] at hi
          <;> subst hi <;> decide +kernel

/-- The links of the fixture survive. -/
example (T : Table Named) : ∃ W F, write demo = some W ∧ resolve T 1000 W = some (F, []) ∧ links F = links demo :=
  C68_links_survive demo demo_consistent T 1000

end Verif.Link
