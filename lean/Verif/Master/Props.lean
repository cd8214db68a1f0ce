import Verif.Master.Spec

/-!
# C96: channel functions that can be active at the same time are reported
-/

namespace Verif.Master

open Spec

theorem conflicting_iff (f c : Fn) : conflicting f c = true ↔ f.start ≤ c.stop ∧ c.start ≤ f.stop := by
  simp [conflicting]

theorem not_conflicting {f c : Fn} (h : ¬ Overlapping f c) : conflicting f c = false := by
  cases hc : conflicting f c with
  | false => rfl
  | true => exact absurd ((conflicting_iff f c).1 hc) h

/-- Two ranges that overlap have a common value. -/
theorem common {a b c d : Nat} (h1 : a ≤ b) (h2 : c ≤ d) (h3 : a ≤ d) (h4 : c ≤ b) : ∃ v, a ≤ v ∧ v ≤ b ∧ c ≤ v ∧ v ≤ d :=
  ⟨max a c, by omega, by omega, by omega, by omega⟩

/-- What is known of functions that clash. -/
theorem clash_ranges {f c : Fn} (h : Clash f c) : conflicting f c = true := by
  obtain ⟨v, m, ⟨h1, h2, -, -⟩, ⟨h3, h4, -, -⟩⟩ := h
  rw [conflicting_iff]
  omega

/-- With a free function every function clashes whose range overlaps. -/
theorem clash_free {f c : Fn} (hf : Proper f) (hc : Proper c) (h : conflicting f c = true) (hn : Free f) : Clash f c := by
  rw [conflicting_iff] at h
  obtain ⟨v, h1, h2, h3, h4⟩ := common hf.1 hc.1 h.1 h.2
  refine ⟨v, fun _ => c.from_, ⟨h1, h2, ?_, ?_⟩, ⟨h3, h4, ?_, ?_⟩⟩
  · intro n e; rw [hn.1] at e; cases e
  · intro n e; rw [hn.2] at e; cases e
  · intro n _; exact ⟨Nat.le_refl _, hc.2.1⟩
  · intro n _; exact ⟨Nat.le_refl _, hc.2.1⟩

theorem clash_symm {f c : Fn} (h : Clash f c) : Clash c f := by
  obtain ⟨v, m, h1, h2⟩ := h
  exact ⟨v, m, h2, h1⟩

/-- Functions with the same mode master clash if their ranges for it overlap. -/
theorem clash_same {f c : Fn} (hf : Proper f) (hc : Proper c) (h : conflicting f c = true) (hs : SameMaster f c) (h1 : f.from_ ≤ c.to_)
    (h2 : c.from_ ≤ f.to_) : Clash f c := by
  rw [conflicting_iff] at h
  obtain ⟨v, a1, a2, a3, a4⟩ := common hf.1 hc.1 h.1 h.2
  obtain ⟨w, b1, b2, b3, b4⟩ := common hf.2.1 hc.2.1 h1 h2
  exact ⟨v, fun _ => w, ⟨a1, a2, fun _ _ => ⟨b1, b2⟩, fun _ _ => ⟨b1, b2⟩⟩, ⟨a3, a4, fun _ _ => ⟨b3, b4⟩, fun _ _ => ⟨b3, b4⟩⟩⟩

/-- Functions with the same mode master do not clash if their ranges for it do not overlap. -/
theorem clash_same_only {f c : Fn} (hs : SameMaster f c) (h : Clash f c) : f.from_ ≤ c.to_ ∧ c.from_ ≤ f.to_ := by
  obtain ⟨v, m, ⟨-, -, h1, h2⟩, ⟨-, -, h3, h4⟩⟩ := h
  rcases hs with ⟨n, e1, e2⟩ | ⟨n, e1, e2⟩
  · have := h1 n e1; have := h3 n e2; omega
  · have := h2 n e1; have := h4 n e2; omega

theorem same_iff (f c : Fn) : ((f.channel ≠ none ∧ f.channel = c.channel) ∨ (f.function ≠ none ∧ f.function = c.function)) ↔ SameMaster f c := by
  unfold SameMaster
  constructor
  · rintro (⟨h1, h2⟩ | ⟨h1, h2⟩)
    · obtain ⟨n, hn⟩ := Option.ne_none_iff_exists'.1 h1
      exact .inl ⟨n, hn, by rw [← h2, hn]⟩
    · obtain ⟨n, hn⟩ := Option.ne_none_iff_exists'.1 h1
      exact .inr ⟨n, hn, by rw [← h2, hn]⟩
  · rintro (⟨n, h1, h2⟩ | ⟨n, h1, h2⟩)
    · exact .inl ⟨by simp [h1], by rw [h1, h2]⟩
    · exact .inr ⟨by simp [h1], by rw [h1, h2]⟩

/-- A report for two functions: they clash. -/
theorem judge_clash {f c : Fn} (hf : Proper f) (hc : Proper c) (h : conflicting f c = true) (r : Report) (hr : judge f c = some r) : Clash f c := by
  unfold judge at hr
  split at hr
  · rename_i h1
    exact clash_free hf hc h h1
  · split at hr
    · rename_i h1
      rw [same_iff] at h1
      split at hr
      · rename_i h2
        exact clash_same hf hc h h1 h2.1 h2.2
      · cases hr
    · cases hr

/-- What the inner loop finds. -/
theorem inner_some {f : Fn} : ∀ {l : List Fn} {r : Report}, inner f l = some r → ∃ c ∈ l, conflicting f c = true ∧ judge f c = some r := by
  intro l
  induction l with
  | nil => intro r h; cases h
  | cons c l ih =>
    intro r h
    unfold inner at h
    split at h
    · rename_i hc
      exact ⟨c, by simp, hc, h⟩
    · obtain ⟨c', h1, h2, h3⟩ := ih h
      exact ⟨c', by simp [h1], h2, h3⟩

theorem inner_first {f c : Fn} {a b : List Fn} (ha : ∀ x ∈ a, conflicting f x = false) (hc : conflicting f c = true) :
    inner f (a ++ c :: b) = judge f c := by
  induction a with
  | nil => simp [inner, hc]
  | cons x a ih =>
    rw [List.cons_append, inner, ha x (by simp)]
    simp only [Bool.false_eq_true, if_false]
    exact ih (fun y hy => ha y (by simp [hy]))

theorem inner_mem {f : Fn} {r : Report} {a b : List Fn} (h : inner f b = some r) : r ∈ checkLogical (a ++ f :: b) := by
  induction a with
  | nil => simp [checkLogical, h]
  | cons x a ih =>
    rw [List.cons_append, checkLogical]
    exact List.mem_append_right _ ih

/-- **C96, no false alarm.** Whatever is reported of a fixture: there are two functions of one logical channel that can be active at the same time. -/
theorem C96_true (modes : List (List (List (List Fn)))) (h : ∀ m ∈ modes, ∀ ch ∈ m, ∀ l ∈ ch, ∀ f ∈ l, Proper f) (r : Report) (hr : r ∈ check modes) :
    ∃ m ∈ modes, ∃ ch ∈ m, ∃ l ∈ ch, ¬ Exclusive l := by
  unfold check at hr
  obtain ⟨m, hm, hr⟩ := List.mem_flatMap.1 hr
  obtain ⟨ch, hch, hr⟩ := List.mem_flatMap.1 hr
  obtain ⟨l, hl, hr⟩ := List.mem_flatMap.1 hr
  refine ⟨m, hm, ch, hch, l, hl, ?_⟩
  have hp := h m hm ch hch l hl
  clear hl
  induction l with
  | nil => cases hr
  | cons f l ih =>
    rw [checkLogical, List.mem_append] at hr
    intro he
    unfold Exclusive at he
    rw [List.pairwise_cons] at he
    rcases hr with hr | hr
    · rw [Option.mem_toList] at hr
      obtain ⟨c, h1, h2, h3⟩ := inner_some hr
      exact he.1 c h1 (judge_clash (hp f (by simp)) (hp c (by simp [h1])) h2 r h3)
    · exact ih hr (fun x hx => hp x (by simp [hx])) he.2

/-- **C96, what is reported.** A function and the first one behind it whose range overlaps: if they can be active at the same time, and the first one has
no mode master or the same as the other, this is reported. -/
theorem C96_first_partial (a b c : List Fn) (f g : Fn) (hb : ∀ x ∈ b, ¬ Overlapping f x) (hg : Clash f g) :
    (Free f → .missing ∈ checkLogical (a ++ f :: (b ++ g :: c))) ∧
    (¬ Free f → SameMaster f g → .overlap ∈ checkLogical (a ++ f :: (b ++ g :: c))) := by
  have hi := inner_first (b := c) (fun x hx => not_conflicting (hb x hx)) (clash_ranges hg)
  constructor
  · intro hf
    apply inner_mem
    rw [hi]
    unfold judge
    exact if_pos hf
  · intro hf hs
    apply inner_mem
    rw [hi]
    unfold judge
    rw [if_neg (show ¬ (f.channel = none ∧ f.function = none) from hf), if_pos ((same_iff f g).2 hs), if_pos (clash_same_only hs hg)]

/-! ### Channels without mode masters -/

/-- **C96, without mode masters.** A logical channel of functions without mode masters has no report exactly if no two of its functions can be active at
the same time. -/
theorem C96_free (l : List Fn) (hp : ∀ f ∈ l, Proper f) (hf : ∀ f ∈ l, Free f) : checkLogical l = [] ↔ Exclusive l := by
  constructor
  · intro h
    induction l with
    | nil => exact List.Pairwise.nil
    | cons f l ih =>
      rw [checkLogical, List.append_eq_nil_iff] at h
      refine List.pairwise_cons.2 ⟨?_, ih (fun x hx => hp x (by simp [hx])) (fun x hx => hf x (by simp [hx])) h.2⟩
      intro c hc hcl
      have hnone : inner f l = none := by
        cases hi : inner f l with
        | none => rfl
        | some r => rw [hi] at h; simp at h
      have : ∀ (l : List Fn), c ∈ l → inner f l ≠ none := by
        intro l
        induction l with
        | nil => intro h; cases h
        | cons x l ih2 =>
          intro hx
          unfold inner
          split
          · unfold judge
            rw [if_pos (show f.channel = none ∧ f.function = none from hf f (by simp))]
            simp
          · rename_i hn
            rcases List.mem_cons.1 hx with rfl | hx
            · exact absurd (clash_ranges hcl) hn
            · exact ih2 hx
      exact this l hc hnone
  · intro h
    cases hl : checkLogical l with
    | nil => rfl
    | cons r t =>
      have := C96_true [[[l]]] (by simpa using hp) r (by simp [check, hl])
      simp only [List.mem_singleton, exists_eq_left] at this
      exact absurd h this

/-- **C96, fixtures without mode masters.** Nothing is reported of a fixture whose functions have no mode masters exactly if in none of its logical channels
two functions can be active at the same time. -/
theorem C96_fixture (modes : List (List (List (List Fn)))) (hp : ∀ m ∈ modes, ∀ ch ∈ m, ∀ l ∈ ch, ∀ f ∈ l, Proper f ∧ Free f) :
    check modes = [] ↔ ∀ m ∈ modes, ∀ ch ∈ m, ∀ l ∈ ch, Exclusive l := by
  simp only [check, List.flatMap_eq_nil_iff]
  constructor
  · intro h m hm ch hch l hl
    exact (C96_free l (fun f hf => (hp m hm ch hch l hl f hf).1) (fun f hf => (hp m hm ch hch l hl f hf).2)).1 (h m hm ch hch l hl)
  · intro h m hm ch hch l hl
    exact (C96_free l (fun f hf => (hp m hm ch hch l hl f hf).1) (fun f hf => (hp m hm ch hch l hl f hf).2)).2 (h m hm ch hch l hl)

/-- **C96, everywhere.** What is reported of one logical channel is reported of the fixture, in whatever mode and channel it is. -/
theorem C96_everywhere (modes : List (List (List (List Fn)))) (m : List (List (List Fn))) (hm : m ∈ modes) (ch : List (List Fn)) (hch : ch ∈ m) (l : List Fn)
    (hl : l ∈ ch) (r : Report) (hr : r ∈ checkLogical l) : r ∈ check modes :=
  List.mem_flatMap.2 ⟨m, hm, List.mem_flatMap.2 ⟨ch, hch, List.mem_flatMap.2 ⟨l, hl, hr⟩⟩⟩

theorem range_stop {maxDmx s : Nat} {next : Option Nat} (h : s ≤ maxDmx) : s ≤ Chan.fnEndAddress maxDmx s next ∧
    (∀ n, next = some n → n ≤ maxDmx → Chan.fnEndAddress maxDmx s next ≤ maxDmx) := by
  unfold Chan.fnEndAddress
  cases next with
  | none => exact ⟨h, by simp⟩
  | some n =>
    simp only
    split
    · exact ⟨h, fun _ _ _ => Nat.le_refl _⟩
    · refine ⟨by omega, ?_⟩
      intro k e hk
      cases e
      omega

theorem plain_proper (maxDmx : Nat) (after : Option Nat) : ∀ (l : List Nat), (∀ s ∈ l, s ≤ maxDmx) →
    ∀ f ∈ plain maxDmx after l, Proper f ∧ Free f := by
  intro l
  induction l with
  | nil => intro _ f hf; cases hf
  | cons s t ih =>
    intro h f hf
    unfold plain at hf
    rw [Chan.fnRanges, List.map_cons, List.mem_cons] at hf
    rcases hf with rfl | hf
    · exact ⟨⟨(range_stop (h s (by simp))).1, Nat.le_refl _, .inl rfl⟩, rfl, rfl⟩
    · exact ih (fun x hx => h x (by simp [hx])) f hf

/-- The start of a function that is in the list. -/
theorem plain_start {maxDmx : Nat} {after : Option Nat} : ∀ {l : List Nat} {f : Fn}, f ∈ plain maxDmx after l → f.start ∈ l := by
  intro l
  induction l with
  | nil => intro f hf; cases hf
  | cons s t ih =>
    intro f hf
    unfold plain at hf
    rw [Chan.fnRanges, List.map_cons, List.mem_cons] at hf
    rcases hf with rfl | hf
    · simp
    · exact List.mem_cons_of_mem _ (ih hf)

/-- The last function ends at the end of the channel. -/
theorem plain_last {maxDmx : Nat} {after : Option Nat} (ha : ∀ n, after = some n → n = 0) :
    ∀ (l : List Nat), l ≠ [] → (∀ s ∈ l, s ≤ maxDmx) → ∃ f ∈ plain maxDmx after l, f.start ≤ maxDmx ∧ f.stop = maxDmx := by
  intro l
  induction l with
  | nil => intro h; exact absurd rfl h
  | cons s t ih =>
    intro _ h
    cases t with
    | nil =>
      refine ⟨_, by unfold plain; rw [Chan.fnRanges]; exact List.mem_cons_self, h s (by simp), ?_⟩
      simp only [Chan.fnEndAddress, List.head?_nil, Option.none_or]
      cases hx : after with
      | none => rfl
      | some n => rw [ha n hx]; simp
    | cons u t =>
      obtain ⟨f, hf, h1⟩ := ih (by simp) (fun x hx => h x (by simp [hx]))
      refine ⟨f, ?_, h1⟩
      unfold plain at hf ⊢
      rw [Chan.fnRanges, List.map_cons]
      exact List.mem_cons_of_mem _ hf

/-- **C96, without mode masters, by the starts.** The functions of a logical channel, with the ranges the library gives them, have no report exactly if
every function starts behind the one before it.  (The last function of a logical channel is linked with the first one of the next, which starts at 0.) -/
theorem C96_increasing (maxDmx : Nat) (after : Option Nat) (ha : ∀ n, after = some n → n = 0) (starts : List Nat) (h : ∀ s ∈ starts, s ≤ maxDmx) :
    checkLogical (plain maxDmx after starts) = [] ↔ starts.Pairwise (· < ·) := by
  rw [C96_free _ (fun f hf => (plain_proper maxDmx after starts h f hf).1) (fun f hf => (plain_proper maxDmx after starts h f hf).2)]
  induction starts with
  | nil => exact ⟨fun _ => List.Pairwise.nil, fun _ => List.Pairwise.nil⟩
  | cons s t ih =>
    have hp := plain_proper maxDmx after (s :: t) h
    have ht : ∀ x ∈ t, x ≤ maxDmx := fun x hx => h x (by simp [hx])
    have hpt := plain_proper maxDmx after t ht
    have hs : s ≤ maxDmx := h s (by simp)
    have hcons : plain maxDmx after (s :: t) = ⟨s, Chan.fnEndAddress maxDmx s (t.head?.or after), none, none, 0, 0⟩ :: plain maxDmx after t := by
      unfold plain
      rw [Chan.fnRanges, List.map_cons]
    have hhead := hp _ (by rw [hcons]; exact List.mem_cons_self)
    unfold Exclusive at ih ⊢
    rw [hcons, List.pairwise_cons, List.pairwise_cons, ih ht]
    apply and_congr_left
    intro hinc
    cases t with
    | nil => simp [plain, Chan.fnRanges]
    | cons u t =>
      simp only [List.head?_cons, Option.some_or] at hhead ⊢
      constructor
      · intro hno x hx
        have hu : s < u := by
          apply Nat.lt_of_not_le
          intro hle
          obtain ⟨f, hf, h1, h2⟩ := plain_last ha (u :: t) (by simp) ht
          apply hno f hf
          apply clash_free hhead.1 (hpt f hf).1 _ hhead.2
          rw [conflicting_iff]
          simp only [Chan.fnEndAddress, if_pos (show u ≤ s by omega)]
          omega
        rcases List.mem_cons.1 hx with rfl | hx
        · exact hu
        · have := (List.pairwise_cons.1 hinc).1 x hx
          omega
      · intro hall f hf hcl
        have h1 := (conflicting_iff _ _).1 (clash_ranges hcl)
        simp only [Chan.fnEndAddress, if_neg (show ¬ u ≤ s by have := hall u (by simp); omega)] at h1
        have h2 := plain_start hf
        have h3 : u ≤ f.start := by
          rcases List.mem_cons.1 h2 with e | e
          · omega
          · have := (List.pairwise_cons.1 hinc).1 _ e
            omega
        have := hall u (by simp)
        omega

/-- Three functions at 0, 100 and 200 of a channel of one byte have no report; with the last two exchanged there are two. -/
example : checkLogical (plain 255 none [0, 100, 200]) = [] ∧ checkLogical (plain 255 none [0, 200, 100]) = [.missing, .missing] := by decide

/-- Two functions with the same mode master and overlapping ranges for it. -/
example : Report.overlap ∈ checkLogical ([] ++ ⟨0, 255, some 1, none, 0, 100⟩ :: ([] ++ ⟨0, 255, some 1, none, 50, 200⟩ :: [])) :=
  (C96_first_partial [] [] [] ⟨0, 255, some 1, none, 0, 100⟩ ⟨0, 255, some 1, none, 50, 200⟩ (by simp)
    ⟨0, fun _ => 60, by simp [Active], by simp [Active]⟩).2 (by simp [Free]) (.inl ⟨1, rfl, rfl⟩)

/-! ### What does not hold -/

/-- **C96, violated.** A function with a mode master in front of one without: both can be active at the same time, for every mode master and range, and
nothing is reported.  In the other order it is. -/
theorem C96_later_violated (f g : Fn) (hf : Proper f) (hg : Proper g) (hm : ¬ Free f) (hn : Free g) (ho : Overlapping f g) :
    Clash f g ∧ checkLogical [f, g] = [] ∧ checkLogical [g, f] = [.missing] := by
  have hc : conflicting f g = true := (conflicting_iff f g).2 ho
  have hc' : conflicting g f = true := by
    rw [conflicting_iff] at hc ⊢
    exact ⟨hc.2, hc.1⟩
  refine ⟨clash_symm (clash_free hg hf hc' hn), ?_, ?_⟩
  · have h1 : ¬ SameMaster f g := by
      rintro (⟨n, -, e⟩ | ⟨n, -, e⟩)
      · rw [hn.1] at e; cases e
      · rw [hn.2] at e; cases e
    rw [← same_iff] at h1
    simp only [checkLogical, inner, hc, if_true, judge]
    rw [if_neg (show ¬ (f.channel = none ∧ f.function = none) from hm), if_neg h1]
    rfl
  · simp only [checkLogical, inner, hc', if_true, judge]
    rw [if_pos (show g.channel = none ∧ g.function = none from hn)]
    rfl

/-- **C96, violated.** Only the first function with an overlapping range is looked at: a function with another mode master between two with the same one hides
them from the check.  In the other order they are reported. -/
theorem C96_hidden_violated (f g c : Fn) (hf : Proper f) (hc : Proper c) (o1 : Overlapping f g) (o2 : Overlapping f c)
    (hs : SameMaster f c) (ho : f.from_ ≤ c.to_ ∧ c.from_ ≤ f.to_) (hng : ¬ SameMaster f g) (o3 : ¬ Overlapping g c) :
    Clash f c ∧ checkLogical [f, g, c] = [] ∧ checkLogical [f, c, g] ≠ [] := by
  have h1 : conflicting f g = true := (conflicting_iff f g).2 o1
  have h2 : conflicting f c = true := (conflicting_iff f c).2 o2
  have hgc : conflicting g c = false := not_conflicting o3
  have hfree : ¬ (f.channel = none ∧ f.function = none) := by
    rintro ⟨e1, e2⟩
    rcases hs with ⟨n, e, -⟩ | ⟨n, e, -⟩
    · rw [e1] at e; cases e
    · rw [e2] at e; cases e
  have hfg : judge f g = none := by
    unfold judge
    rw [if_neg hfree, if_neg (fun e => hng ((same_iff f g).1 e))]
  refine ⟨clash_same hf hc h2 hs ho.1 ho.2, ?_, ?_⟩
  · simp only [checkLogical, inner, h1, hgc, if_true, hfg]
    rfl
  · have : inner f [c, g] = some .overlap := by
      simp only [inner, h2, if_true, judge]
      rw [if_neg hfree, if_pos ((same_iff f c).2 hs), if_pos ho]
    rw [checkLogical, this]
    simp

/-- Such functions: the first one is there for all values of the channel, the others for one half each; the mode master of the second one is another
channel. -/
example : Clash ⟨0, 255, some 1, none, 0, 9⟩ ⟨128, 255, some 1, none, 5, 20⟩ ∧
    checkLogical [⟨0, 255, some 1, none, 0, 9⟩, ⟨0, 127, some 2, none, 0, 255⟩, ⟨128, 255, some 1, none, 5, 20⟩] = [] :=
  have h := C96_hidden_violated ⟨0, 255, some 1, none, 0, 9⟩ ⟨0, 127, some 2, none, 0, 255⟩ ⟨128, 255, some 1, none, 5, 20⟩
    (by simp [Proper]) (by simp [Proper]) (by simp [Overlapping]) (by simp [Overlapping]) (.inl ⟨1, rfl, rfl⟩) (by decide) (by simp [SameMaster])
    (by simp [Overlapping])
  ⟨h.1, h.2.1⟩

/-- Functions for the first theorem. -/
example : Clash ⟨0, 255, some 1, none, 0, 9⟩ ⟨100, 255, none, none, 0, 0⟩ ∧ checkLogical [⟨0, 255, some 1, none, 0, 9⟩, ⟨100, 255, none, none, 0, 0⟩] = [] :=
  have h := C96_later_violated ⟨0, 255, some 1, none, 0, 9⟩ ⟨100, 255, none, none, 0, 0⟩ (by simp [Proper]) (by simp [Proper]) (by simp [Free])
    ⟨rfl, rfl⟩ (by simp [Overlapping])
  ⟨h.1, h.2.1⟩

end Verif.Master
