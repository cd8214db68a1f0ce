import Verif.Text.Model
import Verif.Str.Lemmas

/-! # C13 - C17, C46: numbers, addresses, offsets, dates and hexadecimal identifiers as text -/

namespace Verif.Text
open Verif.Str

/-! ### helpers -/

theorem intText_nat (n : Nat) : intText (n : Int) = natText n := by
  unfold intText
  rw [if_neg (by omega)]
  rfl

theorem toUint_small (w : Nat) (n : Nat) (h : n < 2^w) : toUint w (n : Int) = n := by
  unfold toUint
  have h' : (n : Int) < (2:Int)^w := by exact_mod_cast h
  rw [Int.emod_eq_of_lt (by omega) h']
  rfl

theorem toSint_small (w : Nat) (hw : 0 < w) (i : Int) (h1 : -(2^(w-1) : Int) ≤ i) (h2 : i < 2^(w-1)) : toSint w i = i := by
  have hp : (2:Int)^w = 2^(w-1) + 2^(w-1) := by
    obtain ⟨k, rfl⟩ : ∃ k, w = k + 1 := ⟨w - 1, by omega⟩
    rw [Int.pow_succ, Nat.add_sub_cancel]; omega
  unfold toSint
  simp only [hp]
  generalize (2:Int)^(w-1) = q at *
  by_cases h : 0 ≤ i
  · rw [Int.emod_eq_of_lt h (by omega), if_pos h2]
  · have : i % (q + q) = i + (q + q) := by
      rw [← Int.add_emod_right, Int.emod_eq_of_lt (by omega) (by omega)]
    rw [this, if_neg (by omega)]
    omega

theorem atoi_digits (ds : List Char) (h : ∀ c ∈ ds, isDigit c = true) (hv : digitsVal 0 ds ≤ 2147483647) :
    atoi ds = some (digitsVal 0 ds : Int) := by
  have e : ds.dropWhile isSpace = ds := by
    cases ds with
    | nil => rfl
    | cons c t => rw [List.dropWhile_cons, isDigit_not_space c (h c List.mem_cons_self)]; rfl
  have sv : signVal ds = (digitsVal 0 ds : Int) := by
    cases ds with
    | nil => rfl
    | cons c t =>
      have hc := h c List.mem_cons_self
      have h1 : c ≠ '-' := isDigit_ne c '-' hc (by decide)
      have h2 : c ≠ '+' := isDigit_ne c '+' hc (by decide)
      unfold signVal
      split
      · rename_i heq; injection heq with a _; exact absurd a h1
      · rename_i heq; injection heq with a _; exact absurd a h2
      · rfl
  unfold atoi
  simp only [e, sv]
  rw [if_pos (by omega)]

theorem twoDigits_digits (v : Nat) : ∀ c ∈ twoDigits v, isDigit c = true := by
  intro c hc
  unfold twoDigits at hc
  rw [intText_nat] at hc
  split at hc
  · rcases List.mem_cons.1 hc with h | h
    · subst h; decide
    · exact natText_digits v c h
  · exact natText_digits v c hc

theorem twoDigits_ne_nil (v : Nat) : twoDigits v ≠ [] := by
  unfold twoDigits; rw [intText_nat]
  split
  · simp
  · exact natText_ne_nil v

theorem atoi_twoDigits (v : Nat) (hv : v ≤ 2147483647) : atoi (twoDigits v) = some (v : Int) := by
  have e : digitsVal 0 (twoDigits v) = v := by
    unfold twoDigits; rw [intText_nat]
    split
    · rw [digitsVal, if_pos (by decide), show 0 * 10 + digitVal '0' = 0 by decide, digitsVal_natText]
    · exact digitsVal_natText v
  rw [atoi_digits _ (twoDigits_digits v) (by omega), e]

theorem not_mem_of_digits (l : List Char) (c : Char) (h : ∀ x ∈ l, isDigit x = true) (hc : isDigit c = false) : c ∉ l := by
  intro hm; rw [h c hm] at hc; exact absurd hc (by decide)

theorem intText_no (i : Int) (c : Char) (h : isDigit c = false) (hm : c ≠ '-') : c ∉ intText i := by
  unfold intText
  split
  · intro hh
    rcases List.mem_cons.1 hh with hh | hh
    · exact hm hh
    · exact natText_not_mem _ c h hh
  · exact natText_not_mem _ c h

theorem intText_ne_nil (i : Int) : intText i ≠ [] := by
  unfold intText
  split
  · simp
  · exact natText_ne_nil _

theorem fields_cons (sep : Char) (n : Nat) (a b : List Char) (ha : a ≠ []) (hs : sep ∉ a) :
    fields sep (n+1) (a ++ sep :: b) = (fields sep n b).map (a :: ·) := by
  rw [fields, findCh_split sep a b hs]
  obtain ⟨k, hk⟩ : ∃ k, a.length = k + 1 := ⟨a.length - 1, by
    have := List.length_pos_iff.2 ha; omega⟩
  rw [hk]
  simp only
  have e1 : delete (a ++ sep :: b) 0 (k + 2) = b := by
    unfold delete
    rw [if_pos (by simp; omega)]
    rw [show 0 + (k + 2) = a.length + 1 by omega, List.drop_length_add_append]
    rfl
  rw [e1, ← hk, List.take_left]

theorem fields_last (sep : Char) (n : Nat) (a : List Char) (hs : sep ∉ a) : fields sep (n+1) a = some [a] := by
  unfold fields
  rw [findCh_none sep a hs]

theorem fields_length (sep : Char) : ∀ (n : Nat) (s : List Char) (fs : List (List Char)),
    fields sep n s = some fs → fs.length ≤ s.count sep + 1 := by
  intro n
  induction n with
  | zero => intro s fs h; simp [fields] at h
  | succ n ih =>
    intro s fs h
    unfold fields at h
    split at h
    · rename_i p hp
      cases hf : fields sep n (delete s 0 (p+2)) with
      | none => simp [hf] at h
      | some fs' =>
        simp [hf] at h
        subst h
        have := ih _ _ hf
        rw [findCh_zero] at hp
        have : s[p+1]? = some sep := by
          have key : ∀ (s : List Char) (q : Nat), findAt [sep] s = some q → s[q]? = some sep := by
            intro s
            induction s with
            | nil => intro q hq; simp [findAt] at hq
            | cons c t iht =>
              intro q hq
              unfold findAt at hq
              split at hq
              · rename_i hpre
                injection hq with hq
                subst hq
                simp [List.isPrefixOf] at hpre
                simp [hpre]
              · cases hq' : findAt [sep] t with
                | none => simp [hq'] at hq
                | some r =>
                  simp [hq'] at hq
                  subst hq
                  simpa using iht r hq'
          exact key s (p+1) hp
        obtain ⟨hlt, hget⟩ := List.getElem?_eq_some_iff.1 this
        have hdel : delete s 0 (p+2) = s.drop (p+2) := by
          unfold delete; rw [if_pos (by omega)]; simp
        have hs : s = s.take (p+1) ++ sep :: s.drop (p+2) := by
          conv => lhs; rw [← List.take_append_drop (p+1) s]
          rw [List.drop_eq_getElem_cons hlt, hget]
        rw [hdel] at hf
        have hc : s.count sep = (s.take (p+1)).count sep + ((s.drop (p+2)).count sep + 1) := by
          conv => lhs; rw [hs]
          simp
        have := ih _ _ hf
        simp
        omega
    · injection h with h; subst h; simp

theorem allSome_length {β : Type} : ∀ (l : List (Option β)) (r : List β), allSome l = some r → r.length = l.length
  | [], r, h => by simp [allSome] at h; simp [h]
  | none :: _, r, h => by simp [allSome] at h
  | some b :: t, r, h => by
    unfold allSome at h
    cases ht : allSome t with
    | none => simp [ht] at h
    | some r' => simp [ht] at h; subst h; simp [allSome_length t r' ht]

theorem deserialize_count (sep : Char) (s : List Char) (r : List Int) (h : deserializeInts sep s = some r) :
    r.length ≤ s.count sep + 1 := by
  unfold deserializeInts at h
  cases hf : fields sep (s.length + 1) s with
  | none => simp [hf] at h
  | some fs =>
    simp only [hf] at h
    have := allSome_length _ _ h
    have := fields_length sep _ _ _ hf
    simp at *
    omega

/-! ### C46: integers, breaks and integer lists -/

/-- **C46**: every `Sint32` survives writing and reading. -/
theorem C46_signed (v old : Int) (h1 : -2147483648 ≤ v) (h2 : v ≤ 2147483647) :
    readSigned 32 (writeInteger v) old = some ⟨true, false, v⟩ := by
  unfold readSigned writeInteger
  rw [if_neg (intText_ne_nil v), atoi_intText v h1 h2]
  simp only [Option.map_some]
  rw [toSint_small 32 (by decide) v (by simpa using h1) (by simp; omega)]

/-- **C46**: every unsigned value below 2^31 that fits the type survives, for `Uint8`, `Uint32` and `size_t`. -/
theorem C46_unsigned (w v old : Nat) (h1 : v < 2^w) (h2 : v ≤ 2147483647) :
    readUnsigned w (writeInteger v) old = some ⟨true, false, v⟩ := by
  unfold readUnsigned writeInteger
  rw [if_neg (intText_ne_nil v), atoi_intText v (by omega) (by omega)]
  simp only [Option.map_some]
  rw [toUint_small w v h1]

example : readUnsigned 8 (writeInteger 255) 0 = some ⟨true, false, 255⟩ ∧
    readSigned 32 (writeInteger (-17)) 0 = some ⟨true, false, -17⟩ := by decide +kernel

/-- **C46**, unsigned 32-bit and `size_t` values above `INT_MAX` do not survive: reading them is undefined (`::atoi`). -/
theorem C46_unsigned_violated : ∃ v : Nat, v < 2^32 ∧ readUnsigned 32 (writeInteger v) 0 = none :=
  ⟨4000000000, by decide, by decide +kernel⟩

/-- A number's text never equals a word starting with a letter, also without regard to case. -/
theorem intText_not_word (v : Int) (w : List Char) (x : Char) (t : List Char) (hw : makeUpper w = x :: t) (hx : 65 ≤ x.toNat) :
    eqNoCase (intText v) w = false := by
  unfold eqNoCase
  rw [decide_eq_false_iff_not]
  intro h
  have hlast : ∃ c t, intText v = c :: t ∧ (isDigit c = true ∨ c = '-') := by
    unfold intText
    split
    · exact ⟨_, _, rfl, .inr rfl⟩
    · obtain ⟨c, t, e, hd⟩ := natText_head v.natAbs
      exact ⟨c, t, e, .inl hd⟩
  obtain ⟨c, t', e, hc⟩ := hlast
  rw [e, hw] at h
  simp only [makeUpper, List.map_cons] at h
  injection h with hh _
  have hlo : c.toNat < 65 := by
    rcases hc with hc | hc
    · simp only [isDigit, Bool.and_eq_true, decide_eq_true_eq] at hc
      have : c.toNat ≤ 57 := hc.2
      omega
    · subst hc; decide
  have : upChar c = c := by
    unfold upChar
    rw [if_neg]
    intro h3
    have : 97 ≤ c.toNat := h3.1
    omega
  rw [this] at hh
  subst hh
  omega

/-- **C46**: DMX breaks survive, including the "Overwrite" break 0. -/
theorem C46_break (v old : Int) (h1 : -2147483648 ≤ v) (h2 : v ≤ 2147483647) :
    readBreak (writeBreak v) old = some ⟨true, false, v⟩ := by
  unfold writeBreak
  by_cases h0 : v = 0
  · subst h0; rw [if_pos rfl]
    have hd : readBreak "Overwrite".toList old = if eqNoCase "Overwrite".toList "Overwrite".toList then some ⟨true, false, 0⟩
      else (atoi "Overwrite".toList).map fun i => ⟨true, false, i⟩ := rfl
    rw [hd, if_pos (by decide)]
  · rw [if_neg h0]
    unfold readBreak
    rw [if_neg (intText_ne_nil v),
      intText_not_word v "Overwrite".toList 'O' "VERWRITE".toList (by decide) (by decide), if_neg Bool.false_ne_true,
      atoi_intText v h1 h2]
    rfl

/-- **C46**: optional integers ("None") survive. -/
theorem C46_integerOrNone (v old : Int) (none : Bool) (h1 : -2147483648 ≤ v) (h2 : v ≤ 2147483647)
    (hn : none = true → v = 0) :
    readIntegerOrNone (writeIntegerOrNone v none) old = some ⟨true, false, (v, none)⟩ := by
  unfold writeIntegerOrNone readIntegerOrNone
  cases none with
  | true =>
    rw [if_pos rfl, if_pos (by decide), hn rfl]
  | false =>
    have := C46_signed v old h1 h2
    unfold writeInteger at this
    simp only [Bool.false_eq_true, if_false]
    rw [intText_not_word v "None".toList 'N' "ONE".toList (by decide) (by decide), if_neg Bool.false_ne_true, this]
    rfl

theorem fields_joinComma : ∀ (ps : List (List Char)), ps ≠ [] → (∀ p ∈ ps, p ≠ [] ∧ ',' ∉ p) → ∀ n, ps.length ≤ n →
    fields ',' n (joinComma ps) = some ps := by
  intro ps
  induction ps with
  | nil => intro h; exact absurd rfl h
  | cons a t ih =>
    intro _ hp n hn
    obtain ⟨m, rfl⟩ : ∃ m, n = m + 1 := ⟨n - 1, by simp at hn; omega⟩
    cases t with
    | nil => exact fields_last ',' m a (hp a (by simp)).2
    | cons b t =>
      rw [joinComma, fields_cons ',' m a _ (hp a (by simp)).1 (hp a (by simp)).2,
        ih (by simp) (fun p h => hp p (List.mem_cons_of_mem _ h)) m (by simp at hn ⊢; omega)]
      rfl

theorem joinComma_length (ps : List (List Char)) : ps.length ≤ (joinComma ps).length + 1 := by
  induction ps with
  | nil => simp
  | cons a t ih =>
    cases t with
    | nil => simp
    | cons b t => simp [joinComma] at ih ⊢; omega

theorem allSome_map (vs : List Int) (h : ∀ v ∈ vs, -2147483648 ≤ v ∧ v ≤ 2147483647) :
    allSome ((vs.map intText).map atoi) = some vs := by
  induction vs with
  | nil => rfl
  | cons v t ih =>
    have hv := h v List.mem_cons_self
    simp only [List.map_cons]
    rw [atoi_intText v hv.1 hv.2, allSome, ih (fun x hx => h x (List.mem_cons_of_mem _ hx))]
    rfl

theorem mem_joinComma (c : Char) (ps : List (List Char)) (h : c ∈ joinComma ps) : c = ',' ∨ ∃ p ∈ ps, c ∈ p := by
  induction ps with
  | nil => simp [joinComma] at h
  | cons a t ih =>
    cases t with
    | nil => exact .inr ⟨a, by simp, h⟩
    | cons b t =>
      rw [joinComma] at h
      rcases List.mem_append.1 h with h | h
      · exact .inr ⟨a, by simp, h⟩
      · rcases List.mem_cons.1 h with h | h
        · exact .inl h
        · rcases ih h with h | ⟨p, hp, hc⟩
          · exact .inl h
          · exact .inr ⟨p, List.mem_cons_of_mem _ hp, hc⟩

theorem no_brace (vs : List Int) (c : Char) (hd : isDigit c = false) (hm : c ≠ '-') (hc : c ≠ ',') :
    c ∉ joinComma (vs.map intText) := by
  intro h
  rcases mem_joinComma c _ h with h | ⟨p, hp, h⟩
  · exact hc h
  · obtain ⟨v, _, rfl⟩ := List.mem_map.1 hp
    exact intText_no v c hd hm h

theorem filter_ne_self (l : List Char) (c : Char) (h : c ∉ l) : l.filter (· ≠ c) = l := by
  rw [List.filter_eq_self]
  intro a ha
  simp; rintro rfl; exact h ha

theorem joinComma_ne_nil (vs : List Int) (h : vs ≠ []) : joinComma (vs.map intText) ≠ [] := by
  cases vs with
  | nil => exact absurd rfl h
  | cons a t =>
    cases t with
    | nil => exact intText_ne_nil a
    | cons b t => simp [joinComma]

/-- **C46**: a non-empty list of integers survives writing (with or without braces) and reading. -/
theorem C46_ints_partial (vs : List Int) (hne : vs ≠ []) (h : ∀ v ∈ vs, -2147483648 ≤ v ∧ v ≤ 2147483647) (br : Bool) :
    readInts (writeInts vs br) = some ⟨true, false, vs⟩ := by
  have hj := joinComma_ne_nil vs hne
  have n1 := no_brace vs '{' (by decide) (by decide) (by decide)
  have n2 := no_brace vs '}' (by decide) (by decide) (by decide)
  have hcore : deserializeInts ',' (joinComma (vs.map intText)) = some vs := by
    unfold deserializeInts
    rw [fields_joinComma _ (by simpa using hne) _ _ (joinComma_length _)]
    · exact allSome_map vs h
    · intro p hp
      obtain ⟨v, _, rfl⟩ := List.mem_map.1 hp
      exact ⟨intText_ne_nil v, intText_no v ',' (by decide) (by decide)⟩
  have hf : ((writeInts vs br).filter (· ≠ '{')).filter (· ≠ '}') = joinComma (vs.map intText) := by
    unfold writeInts
    generalize joinComma (vs.map intText) = j at *
    have f1 := filter_ne_self j '{' n1
    have f2 := filter_ne_self j '}' n2
    cases br with
    | false => simp only [Bool.false_eq_true, if_false, List.nil_append, List.append_nil, f1, f2]
    | true =>
      simp only [if_true]
      have e1 : (['{'] ++ j ++ ['}']).filter (· ≠ '{') = j ++ ['}'] := by
        rw [List.filter_append, List.filter_append, f1]; rfl
      rw [e1, List.filter_append, f2]
      simp
  have hw : writeInts vs br ≠ [] := by
    intro hh
    rw [hh] at hf
    exact hj hf.symm
  unfold readInts
  rw [if_neg hw, hf, hcore]
  rfl

example : writeInts [1, -2, 300] true = "{1,-2,300}".toList ∧
    readInts "{1,-2,300}".toList = some ⟨true, false, [1, -2, 300]⟩ := by decide +kernel

/-- **C46 is violated** for the empty list written with braces: it reads back as `[0]`. -/
theorem C46_empty_list_violated : readInts (writeInts [] true) = some ⟨true, false, [0]⟩ := by decide +kernel

/-! ### C13 -/

/-- **C13**: every DMX address 1..65535 survives writing and reading. -/
theorem C13_roundtrip (a : Nat) (h1 : 1 ≤ a) (h2 : a ≤ 65535) :
    readAddress (writeAddress a) = some ⟨true, false, a⟩ := by
  unfold readAddress writeAddress
  rw [if_neg (intText_ne_nil a), findCh_none '.' _ (intText_no _ _ (by decide) (by decide)),
    atoi_intText a (by omega) (by omega)]
  simp only
  rw [toUint_small 16 a (by omega), if_neg (by omega)]

theorem readAddress_dotted (u a : Nat) (hu : u ≤ 2147483647) (ha : a ≤ 2147483647) :
    readAddress (natText u ++ '.' :: natText a) =
      if toUint 16 u = 0 ∨ toUint 16 a = 0 ∨ toUint 16 a > 512
      then some ⟨false, true, toUint 16 ((((toUint 16 u : Nat) : Int) - 1) * 512 + (toUint 16 a : Nat))⟩
      else some ⟨true, false, toUint 16 ((((toUint 16 u : Nat) : Int) - 1) * 512 + (toUint 16 a : Nat))⟩ := by
  obtain ⟨k, hk⟩ : ∃ k, (natText u).length = k + 1 := ⟨(natText u).length - 1, by
    have := List.length_pos_iff.2 (natText_ne_nil u); omega⟩
  have hne : natText u ++ '.' :: natText a ≠ [] := by simp
  have hleft : leftC (natText u ++ '.' :: natText a) (k+1) = natText u := by
    unfold leftC; rw [← hk, List.take_left]
  have hright : rightC (natText u ++ '.' :: natText a) ((natText u ++ '.' :: natText a).length - (k+1) - 1) = natText a := by
    have hl : (natText u ++ '.' :: natText a).length = (natText u).length + 1 + (natText a).length := by simp; omega
    unfold rightC
    rw [if_neg (by omega), hl]
    rw [show (natText u).length + 1 + (natText a).length - ((natText u).length + 1 + (natText a).length - (k + 1) - 1)
      = (natText u).length + 1 by omega, List.drop_length_add_append]
    rfl
  unfold readAddress
  rw [if_neg hne, findCh_split '.' _ _ (natText_not_mem u '.' (by decide)), hk]
  simp only
  rw [hleft, hright, atoi_natText u hu, atoi_natText a ha]

/-- **C13**: `universe.address` denotes `(universe - 1) * 512 + address`. -/
theorem C13_dotted (u a : Nat) (hu : 1 ≤ u) (ha1 : 1 ≤ a) (ha2 : a ≤ 512) (h : (u - 1) * 512 + a ≤ 65535) :
    readAddress (natText u ++ '.' :: natText a) = some ⟨true, false, (u - 1) * 512 + a⟩ := by
  rw [readAddress_dotted u a (by omega) (by omega), toUint_small 16 u (by omega), toUint_small 16 a (by omega),
    if_neg (by omega)]
  have : ((u : Int) - 1) * 512 + (a : Int) = (((u - 1) * 512 + a : Nat) : Int) := by omega
  rw [this, toUint_small 16 _ (by omega)]

/-- **C13**, reporting, for numbers that fit 16 bits: exactly the out-of-range parts are reported. -/
theorem C13_report_partial (u a : Nat) (hu : u ≤ 65535) (ha : a ≤ 65535) :
    ∃ c, readAddress (natText u ++ '.' :: natText a) = some c ∧ (c.reported ↔ ¬ (1 ≤ u ∧ 1 ≤ a ∧ a ≤ 512)) := by
  rw [readAddress_dotted u a (by omega) (by omega), toUint_small 16 u (by omega), toUint_small 16 a (by omega)]
  split
  · exact ⟨_, rfl, by simp [Conv.reported]; omega⟩
  · exact ⟨_, rfl, by simp [Conv.reported]; omega⟩

/-- **C13**, reporting of a plain address that fits 16 bits. -/
theorem C13_report_plain_partial (a : Nat) (ha : a ≤ 65535) :
    ∃ c, readAddress (natText a) = some c ∧ (c.reported ↔ a = 0) := by
  unfold readAddress
  rw [if_neg (natText_ne_nil a), findCh_none '.' _ (natText_not_mem a '.' (by decide)), atoi_natText a (by omega)]
  simp only
  rw [toUint_small 16 a (by omega)]
  split
  · exact ⟨_, rfl, by simp [Conv.reported]; omega⟩
  · exact ⟨_, rfl, by simp [Conv.reported]; omega⟩

/-- **C13 is violated** for numbers beyond 16 bits: they are accepted silently with a wrong address. The last one is a
perfectly valid universe (129) and address. -/
theorem C13_truncation_violated :
    readAddress "65537".toList = some ⟨true, false, 1⟩ ∧
    readAddress "65537.5".toList = some ⟨true, false, 5⟩ ∧
    readAddress "-1".toList = some ⟨true, false, 65535⟩ ∧
    readAddress "129.1".toList = some ⟨true, false, 1⟩ := by decide +kernel

example : readAddress "2.10".toList = some ⟨true, false, 522⟩ ∧ readAddress "0.10".toList = some ⟨false, true, 65034⟩ := by
  decide +kernel

/-! ### C14 -/

theorem getUniverseFrom_eq (abs : Nat) (h1 : 1 ≤ abs) (h2 : abs ≤ 2^64 - 512) : ∀ fuel u, 1 ≤ u → u ≤ (abs + 511) / 512 →
    (abs + 511) / 512 < fuel + u → getUniverseFrom abs fuel u = some ((abs + 511) / 512) := by
  intro fuel
  induction fuel with
  | zero => intro u _ h3 h4; omega
  | succ n ih =>
    intro u hu h3 h4
    unfold getUniverseFrom
    have e1 : u * 512 % 2^64 = u * 512 := Nat.mod_eq_of_lt (by omega)
    rw [e1]
    split
    · rename_i h
      have e2 : (u + 1) % 2^64 = u + 1 := Nat.mod_eq_of_lt (by omega)
      rw [e2]
      exact ih (u+1) (by omega) (by omega) (by omega)
    · rename_i h
      congr 1; omega

/-- **C14**: every absolute address is split into a universe ≥ 1 and an address in 1..512 that recombine to it
(and the loop ends). -/
theorem C14_split (abs : Nat) (h1 : 1 ≤ abs) (h2 : abs ≤ 2^64 - 512) :
    ∃ fuel u a, getUniverse abs fuel = some u ∧ getAddress abs fuel = some a ∧
      1 ≤ u ∧ 1 ≤ a ∧ a ≤ 512 ∧ (u - 1) * 512 + a = abs ∧ absAddress u a = abs := by
  have hu := getUniverseFrom_eq abs h1 h2 ((abs + 511) / 512 + 1) 1 (by omega) (by omega) (by omega)
  refine ⟨_, (abs + 511) / 512, abs - ((abs + 511) / 512 - 1) * 512, hu, ?_, by omega, by omega, by omega, by omega, ?_⟩
  · unfold getAddress getUniverse
    rw [hu]
    rw [Option.map_some]
    generalize hq : (abs + 511) / 512 = q
    have hq1 : 1 ≤ q := by omega
    have e1 : (q + 2^64 - 1) % 2^64 = q - 1 := by
      rw [show q + 2^64 - 1 = (q - 1) + 2^64 by omega, Nat.add_mod_right, Nat.mod_eq_of_lt (by omega)]
    rw [e1, Nat.mod_eq_of_lt (a := 512 * (q - 1)) (by omega)]
    rw [show abs + 2^64 - 512 * (q-1) = (abs - (q-1)*512) + 2^64 by omega, Nat.add_mod_right, Nat.mod_eq_of_lt (by omega)]
  · unfold absAddress
    rw [if_pos (by omega), Nat.mod_eq_of_lt (by omega)]
    omega

/-- **C14**: an address object built from universe `u` and address `a` reports `u` and `a`. -/
theorem C14_join (u a : Nat) (hu : 1 ≤ u) (hu2 : u ≤ 2^54) (ha : 1 ≤ a) (ha2 : a ≤ 512) :
    ∃ fuel, getUniverse (absAddress u a) fuel = some u ∧ getAddress (absAddress u a) fuel = some a := by
  have habs : absAddress u a = (u - 1) * 512 + a := by
    unfold absAddress
    rw [if_pos (by omega), Nat.mod_eq_of_lt (by omega)]
  obtain ⟨fuel, u', a', h1, h2, h3, h4, h5, h6, _⟩ := C14_split (absAddress u a) (by omega) (by omega)
  have : u' = u := by omega
  have : a' = a := by omega
  subst u' a'
  exact ⟨fuel, h1, h2⟩

/-- Universe 0 and universe 1 are the same. -/
theorem C14_zero (a : Nat) : absAddress 0 a = absAddress 1 a := rfl

example : absAddress 3 17 = 1041 ∧ getUniverse 1041 10 = some 3 ∧ getAddress 1041 10 = some 17 ∧ getUniverse 512 10 = some 1 ∧
    getAddress 1024 10 = some 512 := by decide +kernel

/-! ### C15 -/

/-- The offset describes a channel: parts are 16-bit and absent parts (0) come last. -/
def Offset.Valid (o : Offset) : Prop :=
  o.coarse < 65536 ∧ o.fine < 65536 ∧ o.ultra < 65536 ∧ o.uber < 65536 ∧
  (o.coarse = 0 → o.fine = 0) ∧ (o.fine = 0 → o.ultra = 0) ∧ (o.ultra = 0 → o.uber = 0)

/-- **C15**: channel offsets survive; a virtual channel (no offset) is written as the empty text, for which the
reader answers `false` and leaves all parts 0. -/
theorem C15_roundtrip (o : Offset) (h : o.Valid) :
    readOffset (writeOffset o) = some ⟨decide (o.coarse ≠ 0), false, o⟩ := by
  obtain ⟨c, f, u, b⟩ := o
  obtain ⟨hc, hf, hu, hb, i1, i2, i3⟩ := h
  simp only at *
  have key : ∀ vs : List Nat, vs ≠ [] → (∀ v ∈ vs, v < 65536) →
      readInts (writeInts (vs.map (fun n : Nat => (n : Int))) false) = some ⟨true, false, vs.map (fun n : Nat => (n : Int))⟩ := by
    intro vs hne hv
    apply C46_ints_partial _ (by simpa using hne)
    intro v hvm
    obtain ⟨n, hn, rfl⟩ := List.mem_map.1 hvm
    have := hv n hn
    omega
  by_cases h0 : c = 0
  · have := i1 h0; have := i2 this; have := i3 this
    subst c f u b
    decide
  · by_cases h1 : f = 0
    · have := i2 h1; have := i3 this
      subst f u b
      have e : writeOffset ⟨c, 0, 0, 0⟩ = writeInts ([c].map (fun n : Nat => (n : Int))) false := by
        simp [writeOffset, Nat.pos_of_ne_zero h0]
      unfold readOffset
      rw [e, key [c] (by simp) (by simp; omega)]
      simp [toUint_small 16 c (by omega), h0]
    · by_cases h2 : u = 0
      · have := i3 h2
        subst u b
        have e : writeOffset ⟨c, f, 0, 0⟩ = writeInts ([c, f].map (fun n : Nat => (n : Int))) false := by
          simp [writeOffset, Nat.pos_of_ne_zero h0, Nat.pos_of_ne_zero h1]
        unfold readOffset
        rw [e, key [c, f] (by simp) (by simp; omega)]
        simp [toUint_small 16 c (by omega), toUint_small 16 f (by omega), h0]
      · by_cases h3 : b = 0
        · subst b
          have e : writeOffset ⟨c, f, u, 0⟩ = writeInts ([c, f, u].map (fun n : Nat => (n : Int))) false := by
            simp [writeOffset, Nat.pos_of_ne_zero h0, Nat.pos_of_ne_zero h1, Nat.pos_of_ne_zero h2]
          unfold readOffset
          rw [e, key [c, f, u] (by simp) (by simp; omega)]
          simp [toUint_small 16 c (by omega), toUint_small 16 f (by omega), toUint_small 16 u (by omega), h0]
        · have e : writeOffset ⟨c, f, u, b⟩ = writeInts ([c, f, u, b].map (fun n : Nat => (n : Int))) false := by
            simp [writeOffset, Nat.pos_of_ne_zero h0, Nat.pos_of_ne_zero h1, Nat.pos_of_ne_zero h2, Nat.pos_of_ne_zero h3]
          unfold readOffset
          rw [e, key [c, f, u, b] (by simp) (by simp; omega)]
          simp [toUint_small 16 c (by omega), toUint_small 16 f (by omega), toUint_small 16 u (by omega),
            toUint_small 16 b (by omega), h0]

example : (⟨1, 2, 0, 0⟩ : Offset).Valid ∧ writeOffset ⟨1, 2, 0, 0⟩ = "1,2".toList := by
  constructor
  · simp [Offset.Valid]
  · decide +kernel

/-! ### C16 -/

/-- The six fields are 16-bit numbers (all values the type can hold, in particular all real dates). -/
def Time.Fits (t : Time) : Prop :=
  t.year < 65536 ∧ t.month < 65536 ∧ t.day < 65536 ∧ t.hour < 65536 ∧ t.minute < 65536 ∧ t.second < 65536

theorem deserialize3 (sep : Char) (a b c : List Char) (x y z : Int) (ha : a ≠ []) (hb : b ≠ [])
    (h1 : sep ∉ a) (h2 : sep ∉ b) (h3 : sep ∉ c) (e1 : atoi a = some x) (e2 : atoi b = some y) (e3 : atoi c = some z) :
    deserializeInts sep (a ++ sep :: (b ++ sep :: c)) = some [x, y, z] := by
  unfold deserializeInts
  have hl : (a ++ sep :: (b ++ sep :: c)).length + 1 = (a.length + b.length + c.length) + 1 + 1 + 1 := by simp; omega
  rw [hl, fields_cons sep _ a _ ha h1, fields_cons sep _ b _ hb h2, fields_last sep _ c h3]
  simp [allSome, e1, e2, e3]

/-- **C16**: dates survive writing and reading. -/
theorem C16_roundtrip (t : Time) (h : t.Fits) : readDate (writeDate t) = some ⟨true, false, t⟩ := by
  obtain ⟨y, mo, d, hh, mi, s⟩ := t
  obtain ⟨h1, h2, h3, h4, h5, h6⟩ := h
  simp only at *
  generalize hcal : natText y ++ '-' :: (twoDigits mo ++ '-' :: twoDigits d) = cal
  generalize hclk : twoDigits hh ++ ':' :: (twoDigits mi ++ ':' :: twoDigits s) = clk
  have hw : writeDate ⟨y, mo, d, hh, mi, s⟩ = cal ++ 'T' :: clk := by
    unfold writeDate
    rw [intText_nat, ← hcal, ← hclk]
    simp
  have hT : 'T' ∉ cal := by
    rw [← hcal]
    have n1 := not_mem_of_digits _ 'T' (natText_digits y) (by decide)
    have n2 := not_mem_of_digits _ 'T' (twoDigits_digits mo) (by decide)
    have n3 := not_mem_of_digits _ 'T' (twoDigits_digits d) (by decide)
    simp [n1, n2, n3]
  have dcal : deserializeInts '-' cal = some [(y : Int), mo, d] := by
    rw [← hcal]
    exact deserialize3 '-' _ _ _ _ _ _ (natText_ne_nil y) (twoDigits_ne_nil mo)
      (not_mem_of_digits _ _ (natText_digits y) (by decide)) (not_mem_of_digits _ _ (twoDigits_digits mo) (by decide))
      (not_mem_of_digits _ _ (twoDigits_digits d) (by decide)) (atoi_natText y (by omega)) (atoi_twoDigits mo (by omega))
      (atoi_twoDigits d (by omega))
  have dclk : deserializeInts ':' clk = some [(hh : Int), mi, s] := by
    rw [← hclk]
    exact deserialize3 ':' _ _ _ _ _ _ (twoDigits_ne_nil hh) (twoDigits_ne_nil mi)
      (not_mem_of_digits _ _ (twoDigits_digits hh) (by decide)) (not_mem_of_digits _ _ (twoDigits_digits mi) (by decide))
      (not_mem_of_digits _ _ (twoDigits_digits s) (by decide)) (atoi_twoDigits hh (by omega)) (atoi_twoDigits mi (by omega))
      (atoi_twoDigits s (by omega))
  have hcne : cal ≠ [] := by rw [← hcal]; simp
  obtain ⟨k, hk⟩ : ∃ k, cal.length = k + 1 := ⟨cal.length - 1, by have := List.length_pos_iff.2 hcne; omega⟩
  have hdes : deserializeDate (cal ++ 'T' :: clk) = some [(y : Int), mo, d, hh, mi, s] := by
    unfold deserializeDate
    rw [findCh_split 'T' cal clk hT, hk]
    simp only
    rw [← hk, List.take_left, show k + 2 = cal.length + 1 by omega, List.drop_length_add_append]
    simp only [List.drop_succ_cons, List.drop_zero]
    rw [dcal, dclk]
    rfl
  unfold readDate
  rw [hw, if_neg (by simp), hdes]
  simp only [toUint_small 16 y (by omega), toUint_small 16 mo (by omega), toUint_small 16 d (by omega),
    toUint_small 16 hh (by omega), toUint_small 16 mi (by omega), toUint_small 16 s (by omega)]

example : writeDate ⟨2024, 2, 29, 7, 5, 59⟩ = "2024-02-29T07:05:59".toList ∧ (⟨2024, 2, 29, 7, 5, 59⟩ : Time).Fits := by
  constructor
  · decide +kernel
  · simp [Time.Fits]

/-- **C16**, reporting: a non-empty text without 'T' (or starting with it), or with fewer than two '-' before the 'T', or
fewer than two ':' after it, is reported and yields the zero date. Missing: parts that are present but empty or not
numbers, see `C16_empty_part_violated`. -/
theorem C16_missing_partial (s : List Char) (hne : s ≠ [])
    (h : findCh s 'T' = none ∨ findCh s 'T' = some 0 ∨
      ∃ p, findCh s 'T' = some p ∧ ((s.take p).count '-' < 2 ∨ (s.drop (p+1)).count ':' < 2)) :
    ∀ c, readDate s = some c → c = ⟨false, true, ⟨0, 0, 0, 0, 0, 0⟩⟩ := by
  intro c hc
  have key : deserializeDate s = none ∨ deserializeDate s = some [] := by
    unfold deserializeDate
    rcases h with h | h | ⟨p, h, hcnt⟩
    · rw [h]; exact .inr rfl
    · rw [h]; exact .inr rfl
    · rw [h]
      cases p with
      | zero => exact .inr rfl
      | succ p =>
        simp only
        cases h1 : deserializeInts '-' (s.take (p+1)) with
        | none => exact .inl rfl
        | some cal =>
          cases h2 : deserializeInts ':' (s.drop (p+2)) with
          | none => exact .inl rfl
          | some clk =>
            have c1 := deserialize_count _ _ _ h1
            have c2 := deserialize_count _ _ _ h2
            simp only
            rw [if_neg]
            · exact .inr rfl
            · rintro ⟨e1, e2⟩
              rcases hcnt with hcnt | hcnt
              · omega
              · have : (s.drop (p + 1 + 1)).count ':' = (s.drop (p+2)).count ':' := rfl
                omega
  unfold readDate at hc
  rw [if_neg hne] at hc
  rcases key with key | key
  · rw [key] at hc; simp at hc
  · rw [key] at hc; simp at hc; exact hc.symm

/-- **C16 is violated** when a part is present but empty: the date is accepted silently. -/
theorem C16_empty_part_violated :
    readDate "2024-02-T07:05:".toList = some ⟨true, false, ⟨2024, 2, 0, 7, 5, 0⟩⟩ ∧
    readDate "2024-02--5T07:05:00".toList = some ⟨true, false, ⟨2024, 2, 65531, 7, 5, 0⟩⟩ := by decide +kernel

example : readDate "2024-02-29".toList = some ⟨false, true, ⟨0, 0, 0, 0, 0, 0⟩⟩ := by decide +kernel

/-! ### C17 -/

/-- Specification: hexadecimal digit, either case. -/
def IsHex (c : Char) : Prop := c ∈ "0123456789abcdefABCDEF".toList

instance (c : Char) : Decidable (IsHex c) := inferInstanceAs (Decidable (_ ∈ _))

/-- Specification: value of a hexadecimal digit. -/
def hexDigitValue (c : Char) : Nat :=
  if '0' ≤ c ∧ c ≤ '9' then c.toNat - 48 else if 'a' ≤ c ∧ c ≤ 'f' then c.toNat - 87 else c.toNat - 55

/-- Specification: the number written by hexadecimal digits. -/
def hexNumber (s : List Char) : Nat := s.foldl (fun a c => a * 16 + hexDigitValue c) 0

/-- The digits of `v`, most significant first. -/
def hexD (v : Nat) : List Char := if h : v = 0 then [] else hexD (v / 16) ++ [hexChar (v % 16)]
termination_by v
decreasing_by omega

theorem writeHexLoop_eq : ∀ (fuel v : Nat) (d : List Char), v ≤ fuel →
    writeHexLoop fuel v ('0' :: 'x' :: d) = '0' :: 'x' :: (hexD v ++ d) := by
  intro fuel
  induction fuel with
  | zero =>
    intro v d h
    have : v = 0 := by omega
    subst this
    rw [hexD]; rfl
  | succ n ih =>
    intro v d h
    unfold writeHexLoop
    by_cases hv : v = 0
    · subst hv; rw [hexD]; rfl
    · rw [if_pos (by omega)]
      have e : insert ('0' :: 'x' :: d) 2 [hexChar (v % 16)] = '0' :: 'x' :: (hexChar (v % 16) :: d) := by
        unfold Str.insert
        cases d <;> rfl
      rw [e, show (v - v % 16) / 16 = v / 16 by omega, ih (v/16) _ (by omega)]
      conv => rhs; rw [hexD]
      rw [dif_neg hv]
      simp

theorem hexChar_ok : ∀ d : Fin 16, upChar (hexChar d.val) = hexChar d.val ∧ hexVal (hexChar d.val) = some d.val := by decide

theorem hexLoop_hexD (v : Nat) (hv : v < 2^64) (d : List Char) : hexLoop 0 (hexD v ++ d) = hexLoop v d := by
  induction v using Nat.strongRecOn generalizing d with
  | ind v ih =>
    rw [hexD]
    split
    · rename_i h; subst h; rfl
    · rename_i h
      rw [List.append_assoc, ih (v/16) (by omega) (by omega)]
      have := (hexChar_ok ⟨v % 16, by omega⟩).2
      simp only [List.singleton_append, hexLoop]
      rw [this]
      simp only
      rw [Nat.mod_eq_of_lt (by omega), show v / 16 * 16 + v % 16 = v by omega]

theorem makeUpper_hexD (v : Nat) : makeUpper (hexD v) = hexD v := by
  induction v using Nat.strongRecOn with
  | ind v ih =>
    rw [hexD]
    split
    · rfl
    · unfold makeUpper at *
      rw [List.map_append, ih (v/16) (by omega), List.map_singleton, (hexChar_ok ⟨v % 16, by omega⟩).1]

/-- **C17**: hexadecimal identifiers survive writing and reading. -/
theorem C17_roundtrip (v : Nat) (hv : v ≤ 65535) : readHex (writeHex v) = ⟨true, false, v⟩ := by
  by_cases h0 : v = 0
  · subst h0; decide +kernel
  · have hw : writeHex v = '0' :: 'x' :: hexD v := by
      unfold writeHex
      rw [if_neg (by omega), if_neg h0]
      have := writeHexLoop_eq v v [] (Nat.le_refl _)
      rw [List.append_nil] at this
      exact this
    have hmid : midC ('0' :: 'x' :: hexD v) 2 npos = (hexD v).take npos := by
      unfold midC
      split
      · rename_i h; simp at h; rw [h, List.take_nil]
      · rfl
    have hlen : (hexD v).length ≤ v := by
      clear hw hmid hv h0
      induction v using Nat.strongRecOn with
      | ind v ih =>
        rw [hexD]
        split
        · simp
        · have := ih (v/16) (by omega); simp; omega
    have hloop : hexLoop 0 (makeUpper (midC ('0' :: 'x' :: hexD v) 2 npos)) = .inl v := by
      rw [hmid, List.take_of_length_le (by unfold npos; omega), makeUpper_hexD]
      have := hexLoop_hexD v (by omega) []
      rwa [List.append_nil] at this
    have hpre : leftC ('0' :: 'x' :: hexD v) 2 = "0x".toList := rfl
    unfold readHex
    rw [hw]
    simp only [hpre, if_true, hloop]
    rw [if_neg (by omega)]
    simp

/-- **C17**: text without the prefix is reported. -/
theorem C17_noprefix (s : List Char) (hne : s ≠ []) (h : s.take 2 ≠ "0x".toList) : (readHex s).reported := by
  unfold readHex
  have hl : leftC s 2 ≠ "0x".toList := h
  simp only [if_neg hl]
  right
  rw [if_neg (by omega)]
  have : s.isEmpty = false := by cases s with | nil => exact absurd rfl hne | cons _ _ => rfl
  rw [this, decide_eq_true hl]; rfl

theorem upChar_hex (c : Char) (h : (hexVal (upChar c)).isSome = true) : IsHex c := by
  have hlow : ∀ n : Fin 26, (hexVal (upChar (Char.ofNat (97 + n.val)))).isSome = true → IsHex (Char.ofNat (97 + n.val)) := by
    decide
  by_cases hc : 'a' ≤ c ∧ c ≤ 'z'
  · have h1 : 97 ≤ c.toNat := hc.1
    have h2 : c.toNat ≤ 122 := hc.2
    have := hlow ⟨c.toNat - 97, by omega⟩
    simp only at this
    rw [show 97 + (c.toNat - 97) = c.toNat by omega, Char.ofNat_toNat] at this
    exact this h
  · have hu : upChar c = c := by unfold upChar; rw [if_neg hc]
    rw [hu] at h
    refine Classical.byContradiction fun hn => ?_
    have ne : ∀ x, IsHex x → c ≠ x := by rintro x hx rfl; exact hn hx
    unfold hexVal at h
    rw [if_neg (ne '0' (by decide)),
      if_neg (ne '1' (by decide)),
      if_neg (ne '2' (by decide)),
      if_neg (ne '3' (by decide)),
      if_neg (ne '4' (by decide)),
      if_neg (ne '5' (by decide)),
      if_neg (ne '6' (by decide)),
      if_neg (ne '7' (by decide)),
      if_neg (ne '8' (by decide)),
      if_neg (ne '9' (by decide)),
      if_neg (ne 'A' (by decide)),
      if_neg (ne 'B' (by decide)),
      if_neg (ne 'C' (by decide)),
      if_neg (ne 'D' (by decide)),
      if_neg (ne 'E' (by decide)),
      if_neg (ne 'F' (by decide))] at h
    exact absurd h (by decide)

/-- **C17**: text with a non-hexadecimal digit is reported and refused. -/
theorem C17_nonhex (t : List Char) (hlen : t.length ≤ npos) (h : ∃ c ∈ t, ¬ IsHex c) :
    (readHex ('0' :: 'x' :: t)).ok = false ∧ (readHex ('0' :: 'x' :: t)).err = true := by
  have hmid : midC ('0' :: 'x' :: t) 2 npos = t := by
    unfold midC
    split
    · rename_i h; simp at h; exact h.symm
    · exact List.take_of_length_le hlen
  have hpre : leftC ('0' :: 'x' :: t) 2 = "0x".toList := rfl
  have hloop : ∀ (t : List Char) (acc : Nat), (∃ c ∈ t, ¬ IsHex c) → ∃ v, hexLoop acc (makeUpper t) = .inr v := by
    intro t
    induction t with
    | nil => rintro acc ⟨c, hc, _⟩; simp at hc
    | cons a r ih =>
      rintro acc ⟨c, hc, hn⟩
      simp only [makeUpper, List.map_cons, hexLoop]
      cases hx : hexVal (upChar a) with
      | none => exact ⟨_, rfl⟩
      | some f =>
        have ha : IsHex a := upChar_hex a (by rw [hx]; rfl)
        rcases List.mem_cons.1 hc with e | hc
        · subst e; exact absurd ha hn
        · exact ih _ ⟨c, hc, hn⟩
  obtain ⟨v, hv⟩ := hloop t 0 h
  unfold readHex
  simp only [hpre, if_true, hmid, hv]
  exact ⟨trivial, trivial⟩

theorem hexDigit_ok (c : Char) (h : IsHex c) : hexVal (upChar c) = some (hexDigitValue c) := by
  have : ∀ c ∈ "0123456789abcdefABCDEF".toList, hexVal (upChar c) = some (hexDigitValue c) := by decide
  exact this c h

/-- **C17**: what is read is the number written, for any hexadecimal text in either case whose number fits `size_t`;
numbers above 65535 are refused. -/
theorem C17_value (t : List Char) (hlen : t.length ≤ npos) (h : ∀ c ∈ t, IsHex c) (hv : hexNumber t < 2^64) :
    readHex ('0' :: 'x' :: t) = if hexNumber t ≤ 65535 then ⟨true, false, hexNumber t⟩ else ⟨false, true, 65535⟩ := by
  have hmid : midC ('0' :: 'x' :: t) 2 npos = t := by
    unfold midC
    split
    · rename_i h; simp at h; exact h.symm
    · exact List.take_of_length_le hlen
  have hpre : leftC ('0' :: 'x' :: t) 2 = "0x".toList := rfl
  have grow : ∀ (t : List Char) (a : Nat), a ≤ t.foldl (fun a c => a * 16 + hexDigitValue c) a := by
    intro t
    induction t with
    | nil => intro a; exact Nat.le_refl _
    | cons c r ih => intro a; have := ih (a * 16 + hexDigitValue c); simp only [List.foldl_cons]; omega
  have hloop : ∀ (t : List Char) (acc : Nat), (∀ c ∈ t, IsHex c) →
      t.foldl (fun a c => a * 16 + hexDigitValue c) acc < 2^64 →
      hexLoop acc (makeUpper t) = .inl (t.foldl (fun a c => a * 16 + hexDigitValue c) acc) := by
    intro t
    induction t with
    | nil => intro acc _ _; rfl
    | cons a r ih =>
      intro acc hh hlt
      simp only [makeUpper, List.map_cons, hexLoop]
      rw [hexDigit_ok a (hh a List.mem_cons_self)]
      simp only [List.foldl_cons] at hlt ⊢
      have := grow r (acc * 16 + hexDigitValue a)
      rw [Nat.mod_eq_of_lt (by omega)]
      exact ih _ (fun c hc => hh c (List.mem_cons_of_mem _ hc)) hlt
  have hl := hloop t 0 h hv
  unfold readHex
  simp only [hpre, if_true, hmid, hl]
  have e : t.foldl (fun a c => a * 16 + hexDigitValue c) 0 = hexNumber t := rfl
  rw [e]
  by_cases h1 : hexNumber t ≤ 65535
  · rw [if_neg (by omega), if_pos h1]; simp
  · rw [if_pos (by omega), if_neg h1]

example : readHex "0x1f4A".toList = ⟨true, false, 0x1F4A⟩ ∧ readHex "0x1FFFF".toList = ⟨false, true, 65535⟩ ∧
    writeHex 0x1F4A = "0x1F4A".toList := by decide +kernel

/-- A number of 2^64 or more wraps around and is accepted silently (finding; the reason for `hv` above). -/
theorem C17_wrap_violated : readHex "0x10000000000000001".toList = ⟨true, false, 1⟩ := by decide +kernel

end Verif.Text
