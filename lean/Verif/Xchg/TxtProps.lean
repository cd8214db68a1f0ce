import Verif.Xchg.ServiceProps

/-!
# C50: the announcement (TXT record) of a station
-/

namespace Verif.Xchg

open Verif.Uuid Verif.Str

/-- The wire form of TXT record pieces (RFC 6763): each piece with its length in front. -/
def pieces (ps : List (List Char)) : List Char := ps.flatMap fun p => Char.ofNat p.length :: p

theorem split_mem (c : Char) (p : List Char) (h : c ∈ p) : ∃ a b, p = a ++ c :: b ∧ c ∉ a := by
  induction p with
  | nil => simp at h
  | cons x p ih =>
    by_cases hx : x = c
    · exact ⟨[], p, by simp [hx], by simp⟩
    · obtain ⟨a, b, rfl, hb⟩ := ih (by
        rcases List.mem_cons.1 h with h | h
        · exact absurd h.symm hx
        · exact h)
      exact ⟨x :: a, b, rfl, by simpa using ⟨fun h => hx h.symm, hb⟩⟩

theorem ofNat_byte (n : Nat) (h : n < 256) : (Char.ofNat n).toNat % 256 = n := by
  have : (Char.ofNat n).toNat = n := by
    rw [Char.ofNat, dif_pos (Or.inl (by omega))]
    simp [Char.ofNatAux, Char.toNat]
  rw [this, Nat.mod_eq_of_lt h]

/-- One round of the TXT loop at the start of a piece. -/
theorem txtLoop_piece (pre p rest : List Char) (fuel : Nat) (found : List Char × List Char) (hp : p.length < 256) :
    txtLoop (pre ++ Char.ofNat p.length :: (p ++ rest)) (fuel + 1) pre.length found =
      match findCh p '=' with
      | none => txtLoop (pre ++ Char.ofNat p.length :: (p ++ rest)) fuel pre.length found
      | some eq =>
        if rest = [] then some (.ok (takePiece p eq found))
        else txtLoop (pre ++ Char.ofNat p.length :: (p ++ rest)) fuel (pre.length + (p.length + 1)) (takePiece p eq found) := by
  have hget : (pre ++ Char.ofNat p.length :: (p ++ rest)).getD pre.length '\x00' = Char.ofNat p.length := by
    simp [List.getD]
  have ht : ((pre ++ Char.ofNat p.length :: (p ++ rest)).drop (pre.length + 1)).take p.length = p := by
    rw [List.drop_append, List.drop_of_length_le (by omega)]
    simp
  have hl : (pre ++ Char.ofNat p.length :: (p ++ rest)).length = pre.length + (p.length + 1) + rest.length := by simp; omega
  rw [txtLoop]
  simp only [hget, ofNat_byte _ hp, ht, hl]
  rw [if_neg (by omega)]
  cases hf : findCh p '=' with
  | none =>
    simp only
    rw [if_pos (by omega)]
  | some eq =>
    simp only
    by_cases hr : rest = []
    · rw [if_pos hr, if_neg (by rw [hr]; simp)]
    · have : 0 < rest.length := List.length_pos_iff.2 hr
      rw [if_pos (by omega), if_neg hr]

theorem pieces_cons (pre p : List Char) (ps : List (List Char)) :
    pre ++ pieces (p :: ps) = pre ++ Char.ofNat p.length :: (p ++ pieces ps) ∧
    pre ++ Char.ofNat p.length :: (p ++ pieces ps) = (pre ++ Char.ofNat p.length :: p) ++ pieces ps ∧
    pre.length + (p.length + 1) = (pre ++ Char.ofNat p.length :: p).length := by
  refine ⟨by rw [pieces, List.flatMap_cons]; rfl, by simp, by simp⟩

theorem pieces_ne_nil (ps : List (List Char)) (h : ps ≠ []) : pieces ps ≠ [] := by
  cases ps with
  | nil => exact absurd rfl h
  | cons q ps => rw [pieces, List.flatMap_cons]; simp

/-- What a whole record says: all pieces one after the other. -/
def takePieces (ps : List (List Char)) (found : List Char × List Char) : List Char × List Char :=
  ps.foldl (fun f p => takePiece p ((findCh p '=').getD 0) f) found

/-- A record all of whose pieces contain `=` is read to its end, with one round per piece. -/
theorem txtLoop_pieces (ps : List (List Char)) (pre : List Char) (found : List Char × List Char) (hne : ps ≠ [])
    (hp : ∀ p ∈ ps, p.length < 256) (heq : ∀ p ∈ ps, '=' ∈ p) :
    txtLoop (pre ++ pieces ps) ps.length pre.length found = some (.ok (takePieces ps found)) := by
  induction ps generalizing pre found with
  | nil => exact absurd rfl hne
  | cons p ps ih =>
    obtain ⟨e1, e2, e3⟩ := pieces_cons pre p ps
    obtain ⟨a, b, hab, ha⟩ := split_mem '=' p (heq p (by simp))
    have hf : findCh p '=' = some a.length := by rw [hab]; exact findCh_split '=' a b ha
    rw [e1, List.length_cons, txtLoop_piece pre p _ ps.length found (hp p (by simp))]
    simp only [hf]
    by_cases hps : ps = []
    · rw [if_pos (by rw [hps]; rfl), hps, takePieces, List.foldl_cons, hf]
      rfl
    · rw [if_neg (pieces_ne_nil ps hps), e2, e3, ih _ _ hps (fun q hq => hp q (by simp [hq])) (fun q hq => heq q (by simp [hq])),
        takePieces, takePieces, List.foldl_cons, hf]
      rfl

theorem txtLoop_hang (ps : List (List Char)) (pre : List Char) (found : List Char × List Char)
    (hp : ∀ p ∈ ps, p.length < 256) (hbad : ∃ p ∈ ps, '=' ∉ p) (fuel : Nat) :
    txtLoop (pre ++ pieces ps) fuel pre.length found = none := by
  induction ps generalizing pre found fuel with
  | nil => simp at hbad
  | cons p ps ih =>
    obtain ⟨e1, e2, e3⟩ := pieces_cons pre p ps
    rw [e1]
    have hp1 := hp p (by simp)
    by_cases hin : '=' ∈ p
    · obtain ⟨a, b, hab, ha⟩ := split_mem '=' p hin
      have hf : findCh p '=' = some a.length := by rw [hab]; exact findCh_split '=' a b ha
      obtain ⟨q, hq, hqn⟩ := hbad
      have hq' : q ∈ ps := by
        rcases List.mem_cons.1 hq with rfl | h
        · exact absurd hin hqn
        · exact h
      have hps : ps ≠ [] := List.ne_nil_of_mem hq'
      cases fuel with
      | zero => rfl
      | succ fuel =>
        rw [txtLoop_piece pre p _ fuel found hp1]
        simp only [hf]
        rw [if_neg (pieces_ne_nil ps hps), e2, e3]
        exact ih _ _ (fun q hq => hp q (by simp [hq])) ⟨q, hq', hqn⟩ fuel
    · induction fuel with
      | zero => rfl
      | succ fuel ihf =>
        rw [txtLoop_piece pre p _ fuel found hp1]
        simp only [findCh_none '=' p hin]
        exact ihf

/-- **Violation.** Reading a TXT record of well-formed pieces ends only if every piece contains `=`.  A record with a
piece without `=`, which the standard allows, or the standard's empty record (one empty piece) is read for ever. -/
theorem C50_ends_iff_violated (ps : List (List Char)) (hne : ps ≠ []) (hp : ∀ p ∈ ps, p.length < 256) :
    (∃ fuel, txtLoop (pieces ps) fuel 0 ([], []) ≠ none) ↔ ∀ p ∈ ps, '=' ∈ p := by
  constructor
  · rintro ⟨fuel, h⟩ p hpm
    refine Classical.byContradiction fun hn => h ?_
    exact txtLoop_hang ps [] ([], []) hp ⟨p, hpm, hn⟩ fuel
  · intro h
    refine ⟨ps.length, ?_⟩
    have := txtLoop_pieces ps [] ([], []) hne hp h
    rw [List.nil_append] at this
    rw [show (0 : Nat) = ([] : List Char).length from rfl, this]
    simp

/-- The empty record of the standard, and a record with a boolean attribute after a name. -/
example : (∀ fuel, txtLoop (pieces [[]]) fuel 0 ([], []) = none) ∧
    (∀ fuel, txtLoop (pieces ["StationName=A".toList, "beta".toList]) fuel 0 ([], []) = none) := by
  constructor
  · intro fuel
    refine Classical.byContradiction fun h => ?_
    have := (C50_ends_iff_violated [[]] (by simp) (by simp)).1 ⟨fuel, h⟩ [] (by simp)
    simp at this
  · intro fuel
    refine Classical.byContradiction fun h => ?_
    have := (C50_ends_iff_violated ["StationName=A".toList, "beta".toList] (by simp) (by decide)).1 ⟨fuel, h⟩ "beta".toList (by simp)
    exact absurd this (by decide)

/-- **Violation.** A record without any byte makes discovery throw. -/
theorem C50_empty_violated (fuel : Nat) : txtLoop [] (fuel + 1) 0 ([], []) = some (.error .thrown) := by
  rw [txtLoop]; rfl

theorem rfind_zero (t sub : List Char) (n : Nat) (h0 : sub.isPrefixOf t = true)
    (hn : ∀ k, 0 < k → k ≤ n → sub.isPrefixOf (t.drop k) = false) : rfindBelow t sub n = some 0 := by
  induction n with
  | zero => simp [rfindBelow, h0]
  | succ n ih =>
    rw [rfindBelow, hn (n + 1) (by omega) (by omega), if_neg (by decide)]
    exact ih (fun k h1 h2 => hn k h1 (by omega))

theorem rfind_not_zero (t sub : List Char) (n : Nat) (k : Nat) (hk : 0 < k) (hkn : k ≤ n) (h : sub.isPrefixOf (t.drop k) = true) :
    rfindBelow t sub n ≠ some 0 := by
  induction n with
  | zero => omega
  | succ n ih =>
    rw [rfindBelow]
    split
    · simp
    · rename_i hne
      have : k ≠ n + 1 := fun e => hne (e ▸ h)
      exact ih (by omega)

theorem rfind_not_prefix (t sub : List Char) (n : Nat) (h : sub.isPrefixOf t = false) : rfindBelow t sub n ≠ some 0 := by
  induction n with
  | zero => simp [rfindBelow, h]
  | succ n ih =>
    rw [rfindBelow]
    split
    · simp
    · exact ih

theorem prefix_head (c : Char) (sub t : List Char) (h : c ∉ t) : (c :: sub).isPrefixOf t = false := by
  cases t with
  | nil => rfl
  | cons d t =>
    have : c ≠ d := fun e => h (by simp [e])
    simp [List.isPrefixOf, this]

/-- The record a station announces is made of two pieces. -/
theorem txtRecord_pieces (name : List Char) (uuid : Words) (h : name.length ≤ 243) :
    txtRecord name uuid = pieces ["StationName=".toList ++ name,
      "StationUUID=".toList ++ convertToText (ofWords uuid.1 uuid.2.1 uuid.2.2.1 uuid.2.2.2)] := by
  have h1 : ("StationName=".toList ++ name).length = 12 + name.length := by rw [List.length_append]; rfl
  have h2 : ("StationUUID=".toList ++ convertToText (ofWords uuid.1 uuid.2.1 uuid.2.2.1 uuid.2.2.2)).length = 48 := rfl
  unfold txtRecord pieces
  simp only [h1, h2]
  rw [Nat.mod_eq_of_lt (by omega), List.flatMap_cons, List.flatMap_cons, List.flatMap_nil, h1, h2]
  simp only [List.append_assoc, List.cons_append, List.append_nil, List.nil_append]

theorem hex_not_S (x : Byte) : 'S' ∉ getPieceAsText x := by
  have key : ∀ n : Fin 256, 'S' ∉ getPieceAsText (BitVec.ofFin n) := by decide +kernel
  exact key x.toFin

theorem uuid_not_S (d : List Byte) : 'S' ∉ convertToText d := by
  unfold convertToText toText
  simp only [List.mem_flatten, List.mem_cons, List.not_mem_nil, or_false, not_exists, not_and]
  rintro l hl hS
  rcases hl with rfl | rfl | rfl | rfl | rfl | rfl | rfl | rfl | rfl | rfl | rfl | rfl | rfl | rfl | rfl | rfl | rfl | rfl | rfl | rfl | rfl | rfl
  all_goals first
    | exact hex_not_S _ hS
    | (revert hS; decide)

theorem take_uuid (u : List Char) (h : 'S' ∉ u) (found : List Char × List Char) :
    takePiece ("StationUUID=".toList ++ u) 11 found = (found.1, u) := by
  have h1 : reverseFind ("StationUUID=".toList ++ u) "StationName=".toList ≠ some 0 := by
    unfold reverseFind
    rw [if_neg (by decide)]
    exact rfind_not_prefix _ _ _ rfl
  have h2 : reverseFind ("StationUUID=".toList ++ u) "StationUUID=".toList = some 0 := by
    unfold reverseFind
    rw [if_neg (by decide)]
    refine rfind_zero _ _ _ (by rw [List.isPrefixOf_iff_prefix]; exact List.prefix_append _ _) fun k hk _ => ?_
    refine prefix_head 'S' _ _ fun hS => ?_
    obtain ⟨k, rfl⟩ : ∃ j, k = j + 1 := ⟨k - 1, by omega⟩
    have hS := List.mem_of_mem_drop (i := k) (l := "tationUUID=".toList ++ u) hS
    rcases List.mem_append.1 hS with hS | hS
    · revert hS; decide
    · exact h hS
  unfold takePiece
  rw [if_neg h1, if_pos h2]
  rfl

theorem name_prefix_iff (name : List Char) : (∃ k, 0 < k ∧ k ≤ ("StationName=".toList ++ name).length ∧
      "StationName=".toList.isPrefixOf (("StationName=".toList ++ name).drop k) = true) ↔ "StationName=".toList <:+: name := by
  constructor
  · rintro ⟨k, hk, -, hp⟩
    by_cases h12 : k < 12
    · exfalso
      have key : ∀ k : Fin 12, 0 < k.val → ("StationName=".toList.drop k.val).headD 'S' ≠ 'S' := by decide
      have h3 := key ⟨k, h12⟩ hk
      rw [List.drop_append_of_le_length (by show k ≤ 12; omega)] at hp
      match hd : "StationName=".toList.drop k with
      | [] => 
        have : ("StationName=".toList.drop k).length = 12 - k := by rw [List.length_drop]; rfl
        rw [hd] at this
        simp at this
        omega
      | c :: t =>
        rw [hd] at hp h3
        rw [List.isPrefixOf_iff_prefix] at hp
        obtain ⟨r, hr⟩ := hp
        injection hr with hr _
        exact h3 hr.symm
    · rw [List.drop_append, List.drop_of_length_le (by show 12 ≤ k; omega), List.nil_append, List.isPrefixOf_iff_prefix] at hp
      exact hp.isInfix.trans (List.drop_suffix _ _).isInfix
  · rintro ⟨a, b, rfl⟩
    refine ⟨12 + a.length, by omega, ?_, ?_⟩
    · simp only [List.length_append]
      show 12 + a.length ≤ 12 + (a.length + 12 + b.length)
      omega
    · rw [List.isPrefixOf_iff_prefix, List.drop_append, List.drop_of_length_le (by show 12 ≤ 12 + a.length; omega), List.nil_append,
        List.append_assoc, List.drop_append, List.drop_of_length_le (by show a.length ≤ 12 + a.length - 12; omega), List.nil_append,
        show 12 + a.length - "StationName=".toList.length - a.length = 0 by show 12 + a.length - 12 - a.length = 0; omega]
      exact List.prefix_append _ _

theorem take_name (name : List Char) (found : List Char × List Char) :
    takePiece ("StationName=".toList ++ name) 11 found = if "StationName=".toList <:+: name then found else (name, found.2) := by
  have hlen : ("StationName=".toList ++ name).length = 12 + name.length := by rw [List.length_append]; rfl
  by_cases h : "StationName=".toList <:+: name
  · rw [if_pos h]
    obtain ⟨k, h1, h2, h3⟩ := (name_prefix_iff name).2 h
    have g1 : reverseFind ("StationName=".toList ++ name) "StationName=".toList ≠ some 0 := by
      unfold reverseFind
      rw [if_neg (show ¬ "StationName=".toList.length = 0 by decide)]
      exact rfind_not_zero _ _ _ k h1 h2 h3
    have g2 : reverseFind ("StationName=".toList ++ name) "StationUUID=".toList ≠ some 0 := by
      unfold reverseFind
      rw [if_neg (show ¬ "StationUUID=".toList.length = 0 by decide)]
      exact rfind_not_prefix _ _ _ rfl
    unfold takePiece
    rw [if_neg g1, if_neg g2]
  · rw [if_neg h]
    have g1 : reverseFind ("StationName=".toList ++ name) "StationName=".toList = some 0 := by
      unfold reverseFind
      rw [if_neg (show ¬ "StationName=".toList.length = 0 by decide)]
      refine rfind_zero _ _ _ (by rw [List.isPrefixOf_iff_prefix]; exact List.prefix_append _ _) fun k hk hkl => ?_
      cases hb : "StationName=".toList.isPrefixOf (("StationName=".toList ++ name).drop k) with
      | false => rfl
      | true => exact absurd ((name_prefix_iff name).1 ⟨k, hk, hkl, hb⟩) h
    unfold takePiece
    rw [if_pos g1]
    rfl

/-- The loop needs two rounds for an announcement. -/
theorem txtLoop_announce (name : List Char) (uuid : Words) (h : name.length ≤ 243) :
    txtLoop (txtRecord name uuid) 2 0 ([], []) = some (.ok (if "StationName=".toList <:+: name then [] else name,
      convertToText (ofWords uuid.1 uuid.2.1 uuid.2.2.1 uuid.2.2.2))) := by
  rw [txtRecord_pieces name uuid h]
  have hl : ∀ p ∈ ["StationName=".toList ++ name, "StationUUID=".toList ++ convertToText (ofWords uuid.1 uuid.2.1 uuid.2.2.1 uuid.2.2.2)],
      p.length < 256 ∧ '=' ∈ p := by
    intro p hp
    rcases List.mem_cons.1 hp with rfl | hp
    · exact ⟨by rw [List.length_append]; show 12 + name.length < 256; omega, List.mem_append_left _ (by decide)⟩
    · rw [List.mem_singleton.1 hp]
      exact ⟨by rw [show List.length _ = 48 from rfl]; decide, List.mem_append_left _ (by decide)⟩
  have := txtLoop_pieces _ [] ([], []) (by simp) (fun p hp => (hl p hp).1) (fun p hp => (hl p hp).2)
  rw [List.nil_append] at this
  refine this.trans ?_
  congr 2
  have hf : ∀ (w t : List Char), '=' ∉ w → findCh (w ++ '=' :: t) '=' = some w.length := fun w t hw => findCh_split '=' w t hw
  have f1 : findCh ("StationName=".toList ++ name) '=' = some 11 := hf "StationName".toList name (by decide)
  have f2 : ∀ t, findCh ("StationUUID=".toList ++ t) '=' = some 11 := fun t => hf "StationUUID".toList t (by decide)
  unfold takePieces
  rw [List.foldl_cons, List.foldl_cons, List.foldl_nil, f1, f2]
  simp only [Option.getD_some]
  rw [take_name, take_uuid _ (uuid_not_S _)]
  split <;> rfl

/-- What a peer reads from the announcement of a station whose name has at most 243 bytes: the UUID always, and the name
unless it contains the text `StationName=`, in which case it is lost. -/
theorem C50_announce (name : List Char) (uuid : Words) (h : name.length ≤ 243) :
    ∃ fuel uuidText, txtLoop (txtRecord name uuid) fuel 0 ([], []) =
        some (.ok (if "StationName=".toList <:+: name then [] else name, uuidText)) ∧
      (convertFromTextMvr uuidText (0, 0, 0, 0)).value = uuid :=
  ⟨2, _, txtLoop_announce name uuid h, by rw [C09_mvr_words]⟩

/-- The part of "a station's name and UUID are seen by its peers" that holds. -/
theorem C50_roundtrip_partial (name : List Char) (uuid : Words) (h : name.length ≤ 243) (hn : ¬ "StationName=".toList <:+: name) :
    ∃ fuel uuidText, txtLoop (txtRecord name uuid) fuel 0 ([], []) = some (.ok (name, uuidText)) ∧
      (convertFromTextMvr uuidText (0, 0, 0, 0)).value = uuid := by
  have := C50_announce name uuid h
  rwa [if_neg hn] at this

example : "Front of house = A".toList.length ≤ 243 ∧ ¬ "StationName=".toList <:+: "Front of house = A".toList := by
  constructor
  · decide
  · rintro ⟨a, b, h⟩
    have : 'S' ∈ "Front of house = A".toList := by rw [← h]; simp
    exact absurd this (by decide)

/-- **Violation.** A name of 244 bytes wraps the length byte to zero; every peer that reads the announcement hangs. -/
theorem C50_long_name_violated (name : List Char) (uuid : Words) (h : name.length = 244) (fuel : Nat) :
    txtLoop (txtRecord name uuid) fuel 0 ([], []) = none := by
  have h1 : ("StationName=".toList ++ name).length = 256 := by rw [List.length_append, h]; rfl
  have e : txtRecord name uuid = [] ++ Char.ofNat ([] : List Char).length :: ([] ++ (("StationName=".toList ++ name) ++
      [Char.ofNat 48] ++ ("StationUUID=".toList ++ convertToText (ofWords uuid.1 uuid.2.1 uuid.2.2.1 uuid.2.2.2)))) := by
    have h2 : ("StationUUID=".toList ++ convertToText (ofWords uuid.1 uuid.2.1 uuid.2.2.1 uuid.2.2.2)).length = 48 := rfl
    unfold txtRecord
    simp only [h1, h2]
    simp only [List.append_assoc, List.singleton_append, List.nil_append]
    rfl
  rw [e]
  induction fuel with
  | zero => rfl
  | succ fuel ih =>
    refine (txtLoop_piece [] [] _ fuel ([], []) (by decide)).trans ?_
    rw [findCh_none '=' [] (by simp)]
    exact ih

end Verif.Xchg
