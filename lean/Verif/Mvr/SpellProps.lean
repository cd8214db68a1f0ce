import Verif.Mvr.SpellLemmas

/-!
# C91: a description in the notation of the standard is read as what it says
-/

namespace Verif.Mvr

open Verif.Str Verif.Text Verif.Real Verif.Dmx Verif.Enum Spec Inner
open Verif.Gdtf.Spec (Digits decimal Listed Row Rows GuidText)

/-- A converter reads a notation. -/
def hearsForm (f : Form) (c : Codec) : Bool := tells f c || (f == .text && c == .optText)

theorem signed_means {w : Nat} {i : Int} {t : Text} (h : Whole i t) (hi : -2147483648 ≤ i ∧ i ≤ 2147483647) (hs : toSint w i = i) (old : Int) :
    readSigned w t old = some ⟨true, false, i⟩ := by
  obtain ⟨h1, h2⟩ := atoi_whole h hi
  unfold readSigned
  rw [if_neg h2, h1, Option.map_some, hs]

theorem unsigned_means {w n : Nat} {t : Text} (h : Whole n t) (hn : n < 2147483648) (hw : toUint w (n : Int) = n) (old : Nat) :
    readUnsigned w t old = some ⟨true, false, n⟩ := by
  obtain ⟨h1, h2⟩ := atoi_whole h (by omega)
  unfold readUnsigned
  rw [if_neg h2, h1, Option.map_some, hw]

/-- Every converter reads its notation. -/
theorem dec_means (F : Fl) {f : Form} {c : Codec} {v : Val} {t : Text} (h : hearsForm f c = true) (hk : Kept c v) (hm : Means f v t) (old : Val) :
    Rounded v (dec F c old t) := by
  unfold hearsForm at h
  rw [Bool.or_eq_true] at h
  rcases h with h | h
  · unfold tells at h
    split at h <;> (try cases h) <;> cases v <;> (try exact hk.elim) <;> (try exact hm.elim)
    case text u => cases hm; rfl
    case uuid u => show Val.uuid u = .uuid _; rw [guid_means hm hk]
    case int w i =>
      obtain ⟨hw, h1, h2⟩ := hk
      have hs := signed_means (w := w) hm (by rcases hw with rfl | rfl <;> norm_num at h1 h2 <;> omega)
        (toSint_small w (by omega) i h1 h2) 0
      show Val.int i = result .int old (readSigned w t 0)
      rw [hs]; rfl
    case int i =>
      obtain ⟨n, rfl, hn⟩ := nat_of hk
      show Val.int n = result (fun n : Nat => .int n) old (readUnsigned 32 t 0)
      rw [unsigned_means hm hn (toUint_small 32 n (by omega))]; rfl
    case int i =>
      obtain ⟨n, rfl, hn⟩ := nat_of hk
      show Val.int n = result (fun n : Nat => .int n) old (readUnsigned 64 t 0)
      rw [unsigned_means hm hn (toUint64_small n hn)]; rfl
    case int i =>
      obtain ⟨n, rfl, hn⟩ := nat_of hk
      show Val.int n = result (fun n : Nat => .int n) old (readUnsigned 64 t 0)
      rw [unsigned_means hm hn (toUint64_small n hn)]; rfl
    case int i =>
      obtain ⟨n, rfl, hn⟩ := nat_of hk
      show Val.int n = result (fun i => .int (toUint 64 i)) old (readSigned 32 t 0)
      rw [signed_means hm (by omega) (toSint32_small n hn)]
      show Val.int n = .int (toUint 64 (n : Int))
      rw [toUint64_small n hn]
    case flag b => show Val.flag b = .flag _; rw [flag_means hm]
    case real x =>
      show Rounded (.real x) (if t = [] then old else .real (atof F t))
      rw [if_neg (num_chars hm).1]
      exact num_rounded F hm hk
    case vec v =>
      obtain ⟨a, b, c, ha, hb, hc, e⟩ := vector_means F hm ⟨zero, zero, zero⟩
      show Rounded (.vec v) (result .vec old (readVector F t ⟨zero, zero, zero⟩))
      rw [e]
      exact ⟨num_rounded F ha hk.1, num_rounded F hb hk.2.1, num_rounded F hc hk.2.2⟩
    case color v =>
      obtain ⟨a, b, c, ha, hb, hc, e⟩ := color_means F hm white
      show Rounded (.color v) (result .color old (readColor F white t))
      rw [e]
      exact ⟨num_rounded F ha hk.1, num_rounded F hb hk.2.1, num_rounded F hc hk.2.2⟩
    case matrix m =>
      obtain ⟨n, e, hn⟩ := matrix_means F hm hk .identity
      show Rounded (.matrix m) (result .matrix old (readMatrix F t .identity))
      rw [e]
      exact hn
    case source s => obtain ⟨rfl, hm⟩ := hm; show Val.source s = .source _; rw [source_means hm]
    case scale s => obtain ⟨rfl, hm⟩ := hm; show Val.scale s = .scale _; rw [scale_means hm]
    case transmission s => obtain ⟨rfl, hm⟩ := hm; show Val.transmission s = .transmission _; rw [transmission_means hm]
    case command fn p x =>
      show Rounded (.command fn p x) (readCommand F t)
      rw [command_means F hm hk]
      refine ⟨rfl, rfl, rfl, ?_⟩
      have := F.err x.mag
      rwa [abs_of_nonneg hk.2.2] at this
  · rw [Bool.and_eq_true, beq_iff_eq, beq_iff_eq] at h
    obtain ⟨rfl, rfl⟩ := h
    cases v <;> (try exact hk.elim)
    cases hm; rfl

/-! ### Values -/

/-- A value is read from the place where the standard has it. -/
def spotReads (cls : String) (s : Spot) (v : Value) : Bool :=
  match (row classes cls).fields.find? (fun f => f.member == v.member) with
  | some f => hearsForm s.form f.rcodec && covers v.ty f.rcodec && f.rplace == (match s.name? with | some n => .attr n | none => .own)
  | none => false

theorem spots_read : ∀ k ∈ kinds, ∀ x ∈ entries, x.cls = k.cls → pairs (spotReads k.cls) x.spots k.values = true := by decide +kernel

/-- C91, values (up to exponents and the ranges named in `Holds`): a text at its place in a node, in the notation of the standard and in any
spelling, is read as the value it says. -/
theorem C91_values_partial (F : Fl) (k : Kind) (hk : k ∈ kinds) (x : Entry) (hx : x ∈ entries) (hc : x.cls = k.cls) (i : Nat) (s : Spot) (m : Value)
    (hs : x.spots[i]? = some s) (hm : k.values[i]? = some m) (e : Xml) (t : Text) (ht : s.text? e = some t) (v : Val) (hv : Holds m.ty v)
    (h : Means s.form v t) : ∃ w, valueIn (read classes F k.cls e) m.member = some w ∧ Rounded v w := by
  have hp := pairs_at (spots_read k hk x hx hc) i s m hs hm
  unfold spotReads at hp
  rw [value_read F hk]
  cases hf : (row classes k.cls).fields.find? (fun f => f.member == m.member) with
  | none => rw [hf] at hp; cases hp
  | some f =>
    rw [hf] at hp
    simp only [Bool.and_eq_true, beq_iff_eq] at hp
    obtain ⟨⟨h1, h2⟩, h3⟩ := hp
    refine ⟨_, rfl, ?_⟩
    have hg : f.rplace.get e = t := by
      rw [h3]
      cases s <;> simp only [Spot.name?, Spot.text?, Option.some.injEq] at ht ⊢ <;> simp [Place.get, ht]
    simp only [hg]
    exact dec_means F h1 (covers_kept h2 hv) h f.init

/-! ### Nodes -/

/-- The slot for a member. -/
def slotAt (k : Kind) (m : Member) : Bool :=
  match (row classes k.cls).slots.find? (fun s => s.member == m.member) with
  | some s => s.rbox == collectedIn k.cls m.member && s.accepts == m.classes.map (fun c => (nodeOf c, c)) && s.needsUuid == (m.member == "fChildObjs") &&
      (match m.most with
        | none => s.how == .many
        | some n => n == 1 && s.how != .many && m.classes.length == 1 && m.member != "fChildObjs")
  | none => false

theorem slots_at : ∀ k ∈ kinds, ∀ m ∈ k.members, slotAt k m = true := by decide +kernel

theorem place_nodes {s : Slot} {e : Xml} {b : Option String} (h : s.rbox = b) : s.place e = nodesAt e b := by
  unfold Slot.place nodesAt
  rw [h]
  cases b with
  | none => rfl
  | some b =>
    simp only [Scene.Xml.child?]
    have : (fun x : Xml => decide (x.name = b.toList)) = (fun x => x.name == b.toList) := by
      funext x
      rw [Bool.eq_iff_iff, decide_eq_true_eq, beq_iff_eq]
    rw [this]
    cases e.kids.find? (fun x => x.name == b.toList) <;> rfl

theorem find_map_fst {α : Type} (g : α → String) (q : String → Bool) : ∀ l : List α,
    ((l.map (fun c => (g c, c))).find? (fun p => q p.1)).map (·.2) = l.find? (fun c => q (g c))
  | [] => rfl
  | c :: l => by
    rw [List.map_cons, List.find?_cons, List.find?_cons]
    cases q (g c)
    · exact find_map_fst g q l
    · rfl

/-- C91, lists: nothing is overlooked, and nothing else is there.  The objects in a list are those of all nodes at the place that have the name of
one of its classes, in upper or lower case, in their order; layers and the objects of a scene need a UUID. -/
theorem C91_lists (F : Fl) (k : Kind) (hk : k ∈ kinds) (m : Member) (hm : m ∈ k.members) (ha : m.most = none) (e : Xml) :
    objectsIn (read classes F k.cls e) m.member = some (((nodesAt e (collectedIn k.cls m.member)).filter (fun x => decide (HasUuid m.member x))).filterMap
      (fun x => (classOf m x).map (fun c => read classes F c x))) := by
  have hp := slots_at k hk m hm
  unfold slotAt at hp
  rw [objects_read F hk]
  cases hf : (row classes k.cls).slots.find? (fun s => s.member == m.member) with
  | none => rw [hf] at hp; cases hp
  | some s =>
    rw [hf, ha] at hp
    simp only [Bool.and_eq_true, beq_iff_eq] at hp
    obtain ⟨⟨⟨h1, h2⟩, h3⟩, h4⟩ := hp
    rw [Option.map_some, Slot.read]
    simp only [h4]
    rw [place_nodes h1, List.filterMap_filter]
    congr 2
    funext x
    unfold Slot.created classOf
    have hq : (s.accepts.find? (fun p => s.same x.name p.1)).map (·.2) = m.classes.find? (fun c => decide (Called x (nodeOf c))) := by
      rw [h2]
      refine Eq.trans (find_map_fst nodeOf (fun n => s.same x.name n) m.classes) ?_
      congr 1
      funext c
      unfold Slot.same Called eqNoCase
      rw [if_pos h4]
      rfl
    rw [hq, h3]
    by_cases hu : m.member = "fChildObjs"
    · by_cases hx : x.attr? "uuid".toList = none
      · rw [if_pos (by rw [hx, hu]; rfl), if_neg (fun h => (of_decide_eq_true h : HasUuid m.member x) hu hx)]
        rfl
      · have hn : (x.attr? "uuid".toList).isNone = false := by
          cases h : x.attr? "uuid".toList with
          | none => exact absurd h hx
          | some _ => rfl
        rw [if_neg (by rw [hn]; simp), if_pos (decide_eq_true (show HasUuid m.member x from fun _ => hx))]
    · rw [if_neg (by simp [hu]), if_pos (decide_eq_true (show HasUuid m.member x from fun h => absurd h hu))]

/-- C91, single nodes: the first node of the name at the place is the one that is read. -/
theorem C91_single (F : Fl) (k : Kind) (hk : k ∈ kinds) (m : Member) (hm : m ∈ k.members) (ha : m.most ≠ none) (c : String) (hc : c ∈ m.classes)
    (e x : Xml) (hx : (nodesAt e (collectedIn k.cls m.member)).find? (fun x => decide (x.name = (nodeOf c).toList)) = some x) :
    objectsIn (read classes F k.cls e) m.member = some [read classes F c x] := by
  have hp := slots_at k hk m hm
  unfold slotAt at hp
  rw [objects_read F hk]
  cases hf : (row classes k.cls).slots.find? (fun s => s.member == m.member) with
  | none => rw [hf] at hp; cases hp
  | some s =>
    rw [hf] at hp
    cases hn : m.most with
    | none => exact absurd hn ha
    | some n =>
      rw [hn] at hp
      simp only [Bool.and_eq_true, beq_iff_eq, bne_iff_ne] at hp
      obtain ⟨⟨⟨h1, h2⟩, h3⟩, ⟨⟨h4, h5⟩, h6⟩, h7⟩ := hp
      obtain ⟨d, hd⟩ := List.length_eq_one_iff.1 h6
      rw [hd, List.mem_singleton] at hc
      subst hc
      have hu : s.needsUuid = false := by rw [h3, beq_eq_false_iff_ne]; exact h7
      have hcr : ∀ y, s.created y = if decide (y.name = (nodeOf c).toList) then some c else none := by
        intro y
        unfold Slot.created Slot.same
        rw [hu, h2, hd]
        simp only [Bool.false_and, Bool.false_eq_true, if_false, if_neg h5, List.map_cons, List.map_nil, List.find?_cons, List.find?_nil]
        by_cases hy : y.name = (nodeOf c).toList
        · simp [hy]
        · rw [beq_eq_false_iff_ne.2 hy]; simp [hy]
      have hfound : ∀ (es : List Xml), es.find? (fun x => decide (x.name = (nodeOf c).toList)) = some x →
          ∃ l, es.filterMap (fun y => (s.created y).map (fun cls => read classes F cls y)) = read classes F c x :: l := by
        intro es
        induction es with
        | nil => intro h; cases h
        | cons y es ih =>
          intro h
          rw [List.find?_cons] at h
          rw [List.filterMap_cons, hcr]
          cases hy : decide (y.name = (nodeOf c).toList) with
          | true =>
            rw [hy] at h
            simp only [Option.some.injEq] at h
            subst h
            exact ⟨_, rfl⟩
          | false =>
            rw [hy] at h
            exact ih h
      obtain ⟨l, hl⟩ := hfound _ hx
      rw [Option.map_some, Slot.read, place_nodes h1, hl]
      cases hh : s.how with
      | many => exact absurd hh h5
      | first => rfl
      | needed => rfl
      | embedded => rfl

/-- C91, completeness: the theorems above are about all values and all members of all objects. -/
theorem C91_all (k : Kind) (hk : k ∈ kinds) : (∃ x ∈ entries, x.cls = k.cls ∧ x.spots.length = k.values.length) ∧
    ∀ m ∈ k.members, m.most = none ∨ ∃ c, m.classes = [c] := by
  have h1 : ∀ k ∈ kinds, ∃ x ∈ entries, x.cls = k.cls ∧ x.spots.length = k.values.length := by decide +kernel
  have h2 : ∀ k ∈ kinds, ∀ m ∈ k.members, m.most = none ∨ m.classes.length = 1 := by decide +kernel
  exact ⟨h1 k hk, fun m hm => (h2 k hk m hm).imp id List.length_eq_one_iff.1⟩

/-! ### Instances -/

/-- A node with a matrix in another spelling: spaces, signs, numbers without a point, an exponent. -/
def spelled : Xml := .elem "Matrix".toList [] "{1, 0,0}{+0,1.0 ,-0}{0,.0,1.}{ 2.55e+1,-3,0}".toList []

theorem num_of {x : Dbl} {s : Text} (p g a q : Text) (hp : p.all (· == ' ') = true) (hg : Sign x.neg g) (ha : Point x.mag a)
    (hq : q.all (· == ' ') = true) (hs : s = p ++ g ++ a ++ q) : Num x s :=
  ⟨p, g, a, q, by simpa [Spaces] using hp, hg, ha, by simpa [Spaces] using hq, hs⟩

/-- The matrix that it says. -/
def spelledMatrix : Mat := ⟨⟨one, zero, zero⟩, ⟨zero, one, ⟨true, 0⟩⟩, ⟨zero, zero, one⟩, ⟨⟨false, 51 / 2⟩, ⟨true, 3⟩, zero⟩⟩

theorem spelled_means : Means .matrix (.matrix spelledMatrix) spelled.text := by
  have d : ∀ s : Text, s ≠ [] → s.all (fun c => decide (48 ≤ c.toNat ∧ c.toNat ≤ 57)) = true → Digits s := fun s h1 h2 =>
    ⟨h1, by simpa using h2⟩
  have plain : ∀ (x : ℚ) (s : Text), Digits s → x = decimal s → Point x s := fun x s h1 h2 => .inl (.inl ⟨h1, h2⟩)
  have p0 : Point 0 ['0'] := plain _ _ (d _ (by simp) (by decide)) (by rw [show decimal ['0'] = 0 from rfl]; norm_num)
  have p1 : Point 1 ['1'] := plain _ _ (d _ (by simp) (by decide)) (by rw [show decimal ['1'] = 1 from rfl]; norm_num)
  have p3 : Point 3 ['3'] := plain _ _ (d _ (by simp) (by decide)) (by rw [show decimal ['3'] = 3 from rfl]; norm_num)
  have n0 : Num zero ['0'] := num_of [] [] ['0'] [] rfl (.inl ⟨rfl, rfl⟩) p0 rfl rfl
  have n1 : Num one ['1'] := num_of [] [] ['1'] [] rfl (.inl ⟨rfl, rfl⟩) p1 rfl rfl
  refine ⟨"{1, 0,0}".toList, "{+0,1.0 ,-0}{0,.0,1.}{ 2.55e+1,-3,0}".toList, ⟨"1, 0,0".toList, ⟨['1'], " 0,0".toList, n1, ⟨" 0".toList, ['0'],
      num_of [' '] [] ['0'] [] rfl (.inl ⟨rfl, rfl⟩) p0 rfl rfl, n0, rfl⟩, rfl⟩, rfl⟩,
    ⟨"{+0,1.0 ,-0}".toList, "{0,.0,1.}{ 2.55e+1,-3,0}".toList, ⟨"+0,1.0 ,-0".toList, ⟨"+0".toList, "1.0 ,-0".toList,
      num_of [] ['+'] ['0'] [] rfl (.inr (.inl ⟨rfl, rfl⟩)) p0 rfl rfl, ⟨"1.0 ".toList, "-0".toList,
      num_of [] [] "1.0".toList [' '] rfl (.inl ⟨rfl, rfl⟩) (.inl (.inr ⟨['1'], ['0'], d _ (by simp) (by decide), rfl, by rw [show decimal (['1'] ++ ['0']) = 10 from rfl]; norm_num [spelledMatrix, one]⟩)) rfl rfl,
      num_of [] ['-'] ['0'] [] rfl (.inr (.inr ⟨rfl, rfl⟩)) p0 rfl rfl, rfl⟩, rfl⟩, rfl⟩,
    ⟨"{0,.0,1.}".toList, "{ 2.55e+1,-3,0}".toList, ⟨"0,.0,1.".toList, ⟨['0'], ".0,1.".toList, n0, ⟨".0".toList, "1.".toList,
      num_of [] [] ".0".toList [] rfl (.inl ⟨rfl, rfl⟩) (.inl (.inr ⟨[], ['0'], d _ (by simp) (by decide), rfl, by rw [show decimal ([] ++ ['0']) = 0 from rfl]; norm_num [spelledMatrix, zero]⟩)) rfl rfl,
      num_of [] [] "1.".toList [] rfl (.inl ⟨rfl, rfl⟩) (.inl (.inr ⟨['1'], [], d _ (by simp) (by decide), rfl, by rw [show decimal (['1'] ++ []) = 1 from rfl]; norm_num [spelledMatrix, one]⟩)) rfl rfl,
      rfl⟩, rfl⟩, rfl⟩,
    ⟨"{ 2.55e+1,-3,0}".toList, [], ⟨" 2.55e+1,-3,0".toList, ⟨" 2.55e+1".toList, "-3,0".toList,
      num_of [' '] [] "2.55e+1".toList [] rfl (.inl ⟨rfl, rfl⟩) (.inr ⟨51 / 20, false, "2.55".toList, 'e', ['+'], ['1'],
        .inr ⟨['2'], ['5', '5'], d _ (by simp) (by decide), rfl, by rw [show decimal (['2'] ++ ['5', '5']) = 255 from rfl]; norm_num⟩, .inl rfl,
        .inr (.inl ⟨rfl, rfl⟩), d _ (by simp) (by decide), rfl, by rw [show decimal ['1'] = 1 from rfl]; norm_num [spelledMatrix]⟩) rfl rfl,
      ⟨"-3".toList, ['0'], num_of [] ['-'] ['3'] [] rfl (.inr (.inr ⟨rfl, rfl⟩)) p3 rfl rfl, n0, rfl⟩, rfl⟩, rfl⟩, rfl, rfl⟩, rfl⟩, rfl⟩, rfl⟩

/-- The node is read as that matrix. -/
example (F : Fl) : ∃ w, valueIn (read classes F "fMatrix" spelled) "fMatrix" = some w ∧ Rounded (.matrix spelledMatrix) w :=
  C91_values_partial F (single "fMatrix" .matrix) (by decide +kernel) ⟨"fMatrix", "Matrix", [.between .matrix]⟩ (by decide +kernel) rfl 0
    (.between .matrix) ⟨"fMatrix", .matrix, true⟩ rfl rfl spelled _ rfl _
    (by unfold Holds spelledMatrix one zero; norm_num) spelled_means

/-- A flag in upper case. -/
example (F : Fl) : ∃ w, valueIn (read classes F "fCastShadow" (.elem "CastShadow".toList [] "TRUE".toList [])) "fCastShadow" = some w ∧
    Rounded (.flag true) w :=
  C91_values_partial F (single "fCastShadow" .flag) (by decide +kernel) ⟨"fCastShadow", "CastShadow", [.between .bool]⟩ (by decide +kernel) rfl 0
    (.between .bool) ⟨"fCastShadow", .flag, true⟩ rfl rfl _ _ rfl _ trivial (by show Alike' _ _; unfold Alike'; decide +kernel)

/-- A list with nodes in lower case, nodes of other programs, and a node without UUID. -/
def listed : Xml := .elem "Layer".toList [] [] [.elem "ChildList".toList [] []
  [.elem "truss".toList [("uuid".toList, "A".toList)] [] [], .elem "Other".toList [("uuid".toList, "B".toList)] [] [],
   .elem "Fixture".toList [] [] [], .elem "Fixture".toList [("uuid".toList, "C".toList)] [] []]]

example (F : Fl) : objectsIn (read classes F "SceneDataLayerObj" listed) "fChildObjs" =
    some [read classes F "SceneDataTrussObj" (.elem "truss".toList [("uuid".toList, "A".toList)] [] []),
      read classes F "SceneDataFixtureObj" (.elem "Fixture".toList [("uuid".toList, "C".toList)] [] [])] :=
  C91_lists F ⟨"SceneDataLayerObj", named, withChildren⟩ (by decide +kernel) (many "fChildObjs" placed) (by decide +kernel) rfl listed

/-- The first of two nodes of a name. -/
example (F : Fl) (a b : Xml) (ha : a.name = "Source".toList) : objectsIn (read classes F "SceneDataVideoScreenObj"
    (.elem "VideoScreen".toList [] [] [.elem "Sources".toList [] [] [a, b]])) "fSource" = some [read classes F "SceneDataSourceObj" a] := by
  refine C91_single F ⟨"SceneDataVideoScreenObj", named, withSpec ++ [atMostOne "fSource" "SceneDataSourceObj"]⟩ (by decide +kernel)
    (atMostOne "fSource" "SceneDataSourceObj") (by decide +kernel) (by decide) "SceneDataSourceObj" (by decide) _ a ?_
  have : nodesAt (.elem "VideoScreen".toList [] [] [.elem "Sources".toList [] [] [a, b]]) (collectedIn "SceneDataVideoScreenObj" "fSource") = [a, b] := rfl
  show List.find? _ (nodesAt _ (collectedIn "SceneDataVideoScreenObj" "fSource")) = _
  rw [this, List.find?_cons, decide_eq_true (by rw [ha]; decide +kernel)]

end Verif.Mvr
