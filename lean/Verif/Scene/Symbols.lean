import Verif.Scene.Props

/-!
Symbols and their definitions: /repo/src/SceneDataExchange.cpp:455-510 (SymDef), 2800-2860 (Symbol), 2992-3005
`ReadSymDefObject` and the end of `ReadFromGeneralSceneDescription`, 3990-4024.

Simplifications: `fSymDefMap` is a list of pairs of text and definition in which a text occurs once; the order of
iteration of `std::unordered_map` is the order of the list, with new entries at the end (the standard leaves the
order open and also whether an entry added during the iteration is visited). Keys are compared exactly:
`TXString::operator==` ignores case, but the hash does not.
-/

namespace Verif.Scene

open Verif.Uuid (convertToText)

/-- A symbol of an object or of a definition: the text of the attribute `symdef` and the definition it points to
after reading (the number of the definition). -/
structure Symbol where
  text : Text
  target : Option Nat := none
deriving DecidableEq, Repr

/-- `fSymDefMap`: text of the UUID, number of the definition; `none` is a null pointer. -/
abbrev SymMap := List (Text × Option Nat)

/-- `fSymDefMap[key] = value` for the insertion in 3002. -/
def SymMap.set (m : SymMap) (t : Text) (v : Option Nat) : SymMap :=
  if m.any (·.1 == t) then m.map (fun p => if p.1 == t then (t, v) else p) else m ++ [(t, v)]

/-- `fSymDefMap[key]` as it is read in 4003 and 4018: a key that is not there is inserted with a null pointer. -/
def SymMap.index (m : SymMap) (t : Text) : Option Nat × SymMap :=
  match m.find? (·.1 == t) with
  | some p => (p.2, m)
  | none => (none, m ++ [(t, none)])

/-- SceneDataExchange.cpp:3999-4009, 4013-4023 the symbols of one geometry array. -/
def resolveArr (m : SymMap) : List Symbol → SymMap × List Symbol
  | [] => (m, [])
  | s :: ss =>
    let r := m.index s.text
    let r' := resolveArr r.2 ss
    (r'.1, { s with target := if r.1.isSome then r.1 else s.target } :: r'.2)

/-- SceneDataExchange.cpp:3993-4012 one pass over the map. `defs` are the symbols in each definition. `todo` is
the number of entries still to visit at most, `i` the entry visited. `none`: a null pointer is dereferenced
(`symDef->getGeometryArray()` with a null `symDef`). -/
def passDefs (m : SymMap) (defs : List (List Symbol)) (i : Nat) : Nat → Option (SymMap × List (List Symbol))
  | 0 => some (m, defs)
  | todo + 1 =>
    match m[i]? with
    | none => some (m, defs)
    | some (_, none) => none
    | some (_, some d) =>
      let r := resolveArr m (defs.getD d [])
      passDefs r.1 (defs.set d r.2) (i + 1) todo

/-- SceneDataExchange.cpp:3968-4024 the loop over `fSceneObjects`, without the classes: the map of definitions is
gone through for each object, then the symbols of the object are resolved. An entry that is inserted while the map is
gone through is visited only by the next pass (the standard leaves it open). -/
def resolveSymbols (m : SymMap) (defs : List (List Symbol)) : List (List Symbol) →
    Option (List (List Symbol) × List (List Symbol))
  | [] => some (defs, [])
  | o :: os =>
    match passDefs m defs 0 m.length with
    | none => none
    | some (m', defs') =>
      let r := resolveArr m' o
      match resolveSymbols r.1 defs' os with
      | none => none
      | some (defs'', os') => some (defs'', r.2 :: os')

/-- SceneDataExchange.cpp:2992-3005 `ReadSymDefObject` for the nodes in order. -/
def readDefs (uuids : List Text) : SymMap :=
  (uuids.zipIdx).foldl (fun m p => m.set p.1 (some p.2)) []

namespace Spec

/-- Every symbol of a list refers to one of the definitions. -/
def Refers (m : SymMap) (l : List Symbol) : Prop := ∀ s ∈ l, ∃ d, (s.text, some d) ∈ m

/-- The symbol has the definition with the UUID text it names. -/
def pointTo (m : SymMap) (s : Symbol) : Symbol := { s with target := (m.find? (·.1 == s.text)).bind (·.2) }

end Spec

open Spec

/-- A map without null pointers in which the texts are different. -/
structure Good (m : SymMap) : Prop where
  full : ∀ p ∈ m, p.2.isSome
  keys : (m.map (·.1)).Nodup

theorem find_good {m : SymMap} (h : Good m) {t : Text} {d : Nat} (hm : (t, some d) ∈ m) :
    m.find? (·.1 == t) = some (t, some d) := by
  obtain ⟨-, hk⟩ := h
  induction m with
  | nil => simp at hm
  | cons p m ih =>
    rw [List.map_cons, List.nodup_cons] at hk
    rcases List.mem_cons.1 hm with rfl | hm
    · simp
    · have : p.1 ≠ t := by
        rintro rfl
        exact hk.1 (List.mem_map.2 ⟨_, hm, rfl⟩)
      rw [List.find?_cons_of_neg (by simpa using this)]
      exact ih hm hk.2

theorem index_good {m : SymMap} (h : Good m) {t : Text} {d : Nat} (hm : (t, some d) ∈ m) :
    m.index t = (some d, m) := by
  rw [SymMap.index, find_good h hm]

theorem resolveArr_good {m : SymMap} (h : Good m) (l : List Symbol) (hl : Refers m l) :
    resolveArr m l = (m, l.map (pointTo m)) := by
  induction l with
  | nil => rfl
  | cons s ss ih =>
    obtain ⟨d, hd⟩ := hl s (by simp)
    rw [resolveArr, index_good h hd]
    dsimp only
    rw [ih fun x hx => hl x (by simp [hx])]
    rw [List.map_cons, pointTo, find_good h hd]
    rfl

theorem pointTo_idem (m : SymMap) (s : Symbol) : pointTo m (pointTo m s) = pointTo m s := rfl

theorem refers_map {m : SymMap} {l : List Symbol} (h : Refers m l) : Refers m (l.map (pointTo m)) := by
  intro s hs
  obtain ⟨x, hx, rfl⟩ := List.mem_map.1 hs
  exact h x hx

/-- One pass over the entries from `i` on. -/
theorem passDefs_good {m : SymMap} (h : Good m) (todo : Nat) : ∀ (i : Nat) (defs : List (List Symbol)),
    (∀ l ∈ defs, Refers m l) →
    ∃ defs', passDefs m defs i todo = some (m, defs') ∧ (∀ l ∈ defs', Refers m l) ∧ defs'.length = defs.length ∧
      ∀ d, (defs'[d]? = defs[d]? ∨ defs'[d]? = (defs[d]?).map (List.map (pointTo m))) ∧
        (∀ j t, i ≤ j → j < i + todo → m[j]? = some (t, some d) → defs'[d]? = (defs[d]?).map (List.map (pointTo m))) := by
  induction todo with
  | zero =>
    intro i defs hd
    exact ⟨defs, rfl, hd, rfl, fun d => ⟨.inl rfl, by omega⟩⟩
  | succ n ih =>
    intro i defs hd
    rw [passDefs]
    cases hi : m[i]? with
    | none =>
      refine ⟨defs, rfl, hd, rfl, fun d => ⟨.inl rfl, fun j t h1 _ h2 => ?_⟩⟩
      have := List.getElem?_eq_none_iff.1 hi
      rw [List.getElem?_eq_none (by omega)] at h2
      cases h2
    | some p =>
      obtain ⟨t, v⟩ := p
      have hv := h.full _ (List.mem_of_getElem? hi)
      cases v with
      | none => simp at hv
      | some e =>
        dsimp only
        have hr : Refers m (defs.getD e []) := by
          rw [List.getD_eq_getElem?_getD]
          cases hg : defs[e]? with
          | none => intro s hs; simp at hs
          | some l => exact hd l (List.mem_of_getElem? hg)
        rw [resolveArr_good h _ hr]
        dsimp only
        have hd' : ∀ l ∈ defs.set e ((defs.getD e []).map (pointTo m)), Refers m l := by
          intro l hl
          rcases List.mem_or_eq_of_mem_set hl with hl | rfl
          · exact hd l hl
          · exact refers_map hr
        obtain ⟨defs', e1, e2, e3, e4⟩ := ih (i + 1) _ hd'
        have hset : ∀ d, (defs.set e ((defs.getD e []).map (pointTo m)))[d]? =
            if d = e then (defs[d]?).map (List.map (pointTo m)) else defs[d]? := by
          intro d
          by_cases hde : d = e
          · subst hde
            rw [if_pos rfl, List.getElem?_set_self', List.getD_eq_getElem?_getD]
            cases defs[d]? <;> rfl
          · rw [if_neg hde, List.getElem?_set_ne (Ne.symm hde)]
        have hmm : ∀ d : Nat, ((defs[d]?).map (List.map (pointTo m))).map (List.map (pointTo m)) =
            (defs[d]?).map (List.map (pointTo m)) := by
          intro d
          cases defs[d]? with
          | none => rfl
          | some l => simp [pointTo_idem]
        refine ⟨defs', e1, e2, by rw [e3, List.length_set], fun d => ?_⟩
        obtain ⟨f1, f2⟩ := e4 d
        rw [hset d] at f1 f2
        by_cases hde : d = e
        · rw [if_pos hde, hmm, or_self] at f1
          exact ⟨.inr f1, fun _ _ _ _ _ => f1⟩
        · rw [if_neg hde] at f1 f2
          refine ⟨f1, fun j t' h1 h2 h3 => f2 j t' ?_ (by omega) h3⟩
          rcases Nat.lt_or_ge i j with h | h
          · omega
          · have : j = i := by omega
            subst this
            rw [hi] at h3
            cases h3
            exact absurd rfl hde

/-- **C56**: if all symbols (of the objects and inside of the definitions) name a definition of the file, then after
reading no pointer was dereferenced that is null and each symbol of an object has the definition it names; if there is
at least one object, this is also true for the symbols inside of the definitions. -/
theorem C56_partial (m : SymMap) (h : Good m) (defs : List (List Symbol)) (os : List (List Symbol))
    (hd : ∀ l ∈ defs, Refers m l) (ho : ∀ l ∈ os, Refers m l) (hall : ∀ d, d < defs.length → ∃ t, (t, some d) ∈ m) :
    ∃ defs', resolveSymbols m defs os = some (defs', os.map (List.map (pointTo m))) ∧
      (os ≠ [] → defs' = defs.map (List.map (pointTo m))) ∧ (os = [] → defs' = defs) := by
  induction os generalizing defs with
  | nil => exact ⟨defs, rfl, by simp, by simp⟩
  | cons o os ih =>
    obtain ⟨defs1, e1, e2, e3, e4⟩ := passDefs_good h m.length 0 defs hd
    have e5 : defs1 = defs.map (List.map (pointTo m)) := by
      apply List.ext_getElem?
      intro d
      rw [List.getElem?_map]
      rcases Nat.lt_or_ge d defs.length with hlt | hge
      · obtain ⟨t, ht⟩ := hall d hlt
        obtain ⟨j, hj⟩ := List.mem_iff_getElem?.1 ht
        have hlt' : j < m.length := by
          rcases Nat.lt_or_ge j m.length with h | h
          · exact h
          · rw [List.getElem?_eq_none h] at hj; cases hj
        exact (e4 d).2 j t (by omega) (by omega) hj
      · rw [List.getElem?_eq_none (by omega), List.getElem?_eq_none hge]; rfl
    rw [resolveSymbols, e1]
    dsimp only
    rw [resolveArr_good h o (ho o (by simp))]
    dsimp only
    obtain ⟨defs', f1, f2, f3⟩ := ih defs1 e2 (fun l hl => ho l (by simp [hl])) (by rw [e3]; exact hall)
    rw [f1]
    refine ⟨defs', rfl, fun _ => ?_, by simp⟩
    by_cases hos : os = []
    · rw [f3 hos, e5]
    · rw [f2 hos, e5, List.map_map]
      apply List.map_congr_left
      intro l _
      simp [pointTo_idem]

theorem readDefs_aux (uuids : List Text) : ∀ (i : Nat) (m : SymMap), Good m → (∀ t ∈ uuids, t ∉ m.map (·.1)) → uuids.Nodup →
    Good ((uuids.zipIdx i).foldl (fun m p => m.set p.1 (some p.2)) m) ∧
    (∀ p, p ∈ (uuids.zipIdx i).foldl (fun m p => m.set p.1 (some p.2)) m ↔
      p ∈ m ∨ ∃ q ∈ uuids.zipIdx i, p = (q.1, some q.2)) := by
  induction uuids with
  | nil => intro i m hm _ _; simp [hm]
  | cons t ts ih =>
    intro i m hm hn hd
    rw [List.zipIdx_cons, List.foldl_cons]
    have ht : m.set t (some i) = m ++ [(t, some i)] := by
      rw [SymMap.set, if_neg]
      intro ha
      obtain ⟨p, hp, he⟩ := List.any_eq_true.1 ha
      exact hn t (by simp) (List.mem_map.2 ⟨p, hp, by simpa using he⟩)
    rw [ht]
    have hg : Good (m ++ [(t, some i)]) := by
      refine ⟨?_, ?_⟩
      · intro p hp
        rcases List.mem_append.1 hp with hp | hp
        · exact hm.full p hp
        · have : p = (t, some i) := by simpa using hp
          rw [this]; rfl
      · rw [List.map_append, List.nodup_append]
        refine ⟨hm.keys, by simp, ?_⟩
        intro a ha b hb e
        have : b = t := by simpa using hb
        rw [e, this] at ha
        exact hn t (by simp) ha
    obtain ⟨h1, h2⟩ := ih (i + 1) (m ++ [(t, some i)]) hg (by
      intro x hx hx'
      rw [List.map_append, List.mem_append] at hx'
      rcases hx' with hx' | hx'
      · exact hn x (by simp [hx]) hx'
      · have : x = t := by simpa using hx'
        rw [this] at hx
        exact (List.nodup_cons.1 hd).1 hx) (List.nodup_cons.1 hd).2
    refine ⟨h1, fun p => ?_⟩
    rw [h2 p]
    simp only [List.mem_append, List.mem_cons, List.not_mem_nil, or_false]
    constructor
    · rintro ((h | h) | ⟨q, hq, rfl⟩)
      · exact .inl h
      · exact .inr ⟨(t, i), .inl rfl, h⟩
      · exact .inr ⟨q, .inr hq, rfl⟩
    · rintro (h | ⟨q, (rfl | hq), rfl⟩)
      · exact .inl (.inl h)
      · exact .inl (.inr rfl)
      · exact .inr ⟨q, hq, rfl⟩

/-- The definitions of a file with different UUID texts give a map without null pointers that has the definition
number `d` under the text of the definition number `d`. -/
theorem readDefs_good (uuids : List Text) (h : uuids.Nodup) :
    Good (readDefs uuids) ∧ ∀ (d : Nat) (t : Text), uuids[d]? = some t ↔ (t, some d) ∈ readDefs uuids := by
  obtain ⟨h1, h2⟩ := readDefs_aux uuids 0 [] ⟨by simp, by simp⟩ (by simp) h
  refine ⟨h1, fun d t => ?_⟩
  rw [readDefs, h2]
  simp only [List.not_mem_nil, false_or]
  constructor
  · intro hd
    exact ⟨(t, d), by rw [List.mem_zipIdx_iff_getElem?]; exact hd, rfl⟩
  · rintro ⟨q, hq, he⟩
    rw [List.mem_zipIdx_iff_getElem?] at hq
    cases he
    exact hq

/-- Two definitions, the second one contains a symbol of the first one; two objects with symbols. -/
example : resolveSymbols (readDefs ["A".toList, "B".toList]) [[], [⟨"A".toList, none⟩]]
    [[⟨"B".toList, none⟩, ⟨"A".toList, none⟩], []] =
    some ([[], [⟨"A".toList, some 0⟩]], [[⟨"B".toList, some 1⟩, ⟨"A".toList, some 0⟩], []]) := by decide

theorem C56_readDefs (uuids : List Text) (h : uuids.Nodup) (defs os : List (List Symbol))
    (hlen : defs.length = uuids.length) (hd : ∀ l ∈ defs, ∀ s ∈ l, s.text ∈ uuids)
    (ho : ∀ l ∈ os, ∀ s ∈ l, s.text ∈ uuids) :
    ∃ defs' os', resolveSymbols (readDefs uuids) defs os = some (defs', os') ∧
      os' = os.map (List.map fun s => { s with target := some (uuids.idxOf s.text) }) := by
  obtain ⟨hg, hm⟩ := readDefs_good uuids h
  have href : ∀ l : List Symbol, (∀ s ∈ l, s.text ∈ uuids) → Refers (readDefs uuids) l := by
    intro l hl s hs
    obtain ⟨d, hd⟩ := List.mem_iff_getElem?.1 (hl s hs)
    exact ⟨d, (hm d s.text).1 hd⟩
  obtain ⟨defs', e, -, -⟩ := C56_partial (readDefs uuids) hg defs os (fun l hl => href l (hd l hl))
    (fun l hl => href l (ho l hl)) (fun d hd' => by
      have : d < uuids.length := by omega
      exact ⟨uuids[d], (hm d _).1 (List.getElem?_eq_getElem this)⟩)
  refine ⟨defs', _, e, ?_⟩
  apply List.map_congr_left
  intro l hl
  apply List.map_congr_left
  intro s hs
  have hlt := List.idxOf_lt_length_iff.2 (ho l hl s hs)
  have hi : uuids[uuids.idxOf s.text]? = some s.text := by
    rw [List.getElem?_eq_getElem hlt]
    simp
  rw [pointTo, find_good hg ((hm _ _).1 hi)]
  rfl

/-- **C56 does not hold in full**: if an object has a symbol that names no definition of the file and another object
follows, a null pointer is dereferenced, for every file. -/
theorem C56_dangling_violated (m : SymMap) (h : Good m) (defs : List (List Symbol)) (hd : ∀ l ∈ defs, Refers m l)
    (s : Symbol) (hs : s.text ∉ m.map (·.1)) (o : List Symbol) (os : List (List Symbol)) :
    resolveSymbols m defs ([s] :: o :: os) = none := by
  obtain ⟨defs1, e1, -, -, -⟩ := passDefs_good h m.length 0 defs hd
  rw [resolveSymbols, e1]
  dsimp only
  have hi : m.index s.text = (none, m ++ [(s.text, none)]) := by
    rw [SymMap.index]
    cases hf : m.find? (·.1 == s.text) with
    | none => rfl
    | some p =>
      have := List.find?_some hf
      exact absurd (List.mem_map.2 ⟨p, List.mem_of_find?_eq_some hf, by simpa using this⟩) hs
  have hr : resolveArr m [s] = (m ++ [(s.text, none)], [{ s with target := s.target }]) := by
    rw [resolveArr, hi]
    rfl
  rw [hr]
  dsimp only
  have key : ∀ (todo i : Nat) (defs : List (List Symbol)), i ≤ m.length → m.length < i + todo →
      ∀ ex : SymMap, passDefs (m ++ [(s.text, none)] ++ ex) defs i todo = none := by
    intro todo
    induction todo with
    | zero => intro i defs h1 h2; omega
    | succ n ih =>
      intro i defs h1 h2 ex
      rw [passDefs]
      rcases Nat.lt_or_ge i m.length with hlt | hge
      · have hg : (m ++ [(s.text, none)] ++ ex)[i]? = m[i]? := by
          rw [List.append_assoc, List.getElem?_append_left hlt]
        rw [hg, List.getElem?_eq_getElem hlt]
        have hv := h.full _ (List.getElem_mem hlt)
        generalize m[i] = p at hv
        obtain ⟨t, v⟩ := p
        cases v with
        | none => simp at hv
        | some d =>
          dsimp only
          obtain ⟨ex', he⟩ : ∃ ex', (resolveArr (m ++ [(s.text, none)] ++ ex) (defs.getD d [])).1 =
              m ++ [(s.text, none)] ++ ex' := by
            generalize defs.getD d [] = l
            clear ih hg
            induction l generalizing ex with
            | nil => exact ⟨ex, rfl⟩
            | cons a l ihl =>
              rw [resolveArr]
              dsimp only
              rw [SymMap.index]
              split
              · exact ihl ex
              · obtain ⟨ex', he⟩ := ihl (ex ++ [(a.text, none)])
                refine ⟨ex', ?_⟩
                rw [← he, List.append_assoc (m ++ _) ex]
          rw [he]
          exact ih (i + 1) _ (by omega) (by omega) ex'
      · have : i = m.length := by omega
        subst this
        have hg : (m ++ [(s.text, none)] ++ ex)[m.length]? = some (s.text, none) := by
          rw [List.append_assoc, List.getElem?_append_right (Nat.le_refl _)]
          simp
        rw [hg]
  rw [resolveSymbols]
  have hk := key (m ++ [(s.text, none)]).length 0 defs1 (by omega) (by simp) []
  rw [List.append_nil] at hk
  rw [hk]

/-- Such a file: the symbol of the first object names a definition that is not there. -/
example : resolveSymbols (readDefs ["A".toList]) [[]] [[⟨"X".toList, none⟩], []] = none := by decide

/-- A symbol inside of a definition is not resolved if the file has no scene objects. -/
theorem C56_no_objects (m : SymMap) (defs : List (List Symbol)) : resolveSymbols m defs [] = some (defs, []) := rfl

end Verif.Scene
