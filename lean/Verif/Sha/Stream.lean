import Verif.Sha.Lemmas

/-! Invariant of the streaming interface. -/

namespace Verif.Sha
open Verif.Fips

theorem take_set_succ {α : Type} (l : List α) (n : Nat) (a : α) (h : n < l.length) :
    (l.set n a).take (n+1) = l.take n ++ [a] := by
  rw [List.set_eq_take_append_cons_drop, if_pos h, List.take_append]
  simp [List.length_take, Nat.min_eq_left (Nat.le_of_lt h), List.take_take]

theorem blocks_lt (m : List Byte) (h : m.length < 64) : blocks m = [] := by
  rw [blocks, dif_pos h]

theorem blocks_ge (m : List Byte) (h : 64 ≤ m.length) :
    blocks m = m.take 64 :: blocks (m.drop 64) := by
  rw [blocks, dif_neg (by omega)]

theorem blocks_append (n : Nat) : ∀ (m x : List Byte), m.length = 64 * n →
    blocks (m ++ x) = blocks m ++ blocks x := by
  induction n with
  | zero =>
    intro m x h
    have : m = [] := List.eq_nil_of_length_eq_zero (by omega)
    subst this
    rw [blocks_lt [] (by simp)]
    simp
  | succ n ih =>
    intro m x h
    rw [blocks_ge (m ++ x) (by simp; omega), blocks_ge m (by omega)]
    rw [List.take_append_of_le_length (by omega), List.drop_append_of_le_length (by omega),
      ih (m.drop 64) x (by simp; omega)]
    simp

theorem blocks_one (b : List Byte) (h : b.length = 64) : blocks b = [b] := by
  rw [blocks_ge b (by omega), blocks_lt (b.drop 64) (by simp [h])]
  simp [List.take_of_length_le (Nat.le_of_eq h)]

/-- `s` has consumed exactly the message `m`. -/
structure Inv (s : State) (m : List Byte) : Prop where
  bufLen : s.buffer.length = 64
  ex : ∃ n bs rest, m = bs ++ rest ∧ bs.length = 64 * n ∧ rest.length < 64 ∧
    s.bufferSize = rest.length ∧ s.buffer.take s.bufferSize = rest ∧
    toHash s.hash = (blocks bs).foldl compress initialHash ∧
    s.numBytes = BitVec.ofNat 64 (64 * n)

theorem fillPartial_eq (data : List Byte) : ∀ (s : State), s.buffer.length = 64 → s.bufferSize ≤ 64 →
    ∃ b', fillPartial s data =
        some ({ s with buffer := b', bufferSize := s.bufferSize + min (64 - s.bufferSize) data.length },
              data.drop (min (64 - s.bufferSize) data.length)) ∧
      b'.length = 64 ∧
      b'.take (s.bufferSize + min (64 - s.bufferSize) data.length) =
        s.buffer.take s.bufferSize ++ data.take (min (64 - s.bufferSize) data.length) := by
  induction data with
  | nil => intro s h1 h2; exact ⟨s.buffer, by simp [fillPartial], h1, by simp⟩
  | cons x xs ih =>
    intro s h1 h2
    unfold fillPartial
    by_cases hlt : s.bufferSize < 64
    · simp only [if_pos hlt, wr, h1]
      have := ih { s with buffer := s.buffer.set s.bufferSize x, bufferSize := s.bufferSize + 1 }
        (by simp [h1]) (by simp only; omega)
      obtain ⟨b', e1, e2, e3⟩ := this
      have hm : min (64 - s.bufferSize) (xs.length + 1) = min (64 - (s.bufferSize + 1)) xs.length + 1 := by
        omega
      refine ⟨b', ?_, e2, ?_⟩
      · simp only [Option.bind_eq_bind, Option.bind_some]
        rw [e1]
        simp only [List.length_cons, hm, List.drop_succ_cons]
        congr 3
        omega
      · simp only [List.length_cons, hm, List.take_succ_cons]
        simp only at e3
        rw [show s.bufferSize + (min (64 - (s.bufferSize + 1)) xs.length + 1) =
          s.bufferSize + 1 + min (64 - (s.bufferSize + 1)) xs.length by omega, e3,
          take_set_succ _ _ _ (by omega)]
        simp
    · have h64 : s.bufferSize = 64 := by omega
      refine ⟨s.buffer, ?_, h1, ?_⟩
      · simp only [h64]
        cases s
        simp_all
      · simp [h64]

theorem keepRest_eq (data : List Byte) : ∀ (s : State), s.buffer.length = 64 →
    s.bufferSize + data.length ≤ 64 →
    ∃ b', keepRest s data = some { s with buffer := b', bufferSize := s.bufferSize + data.length } ∧
      b'.length = 64 ∧
      b'.take (s.bufferSize + data.length) = s.buffer.take s.bufferSize ++ data := by
  induction data with
  | nil => intro s h1 h2; exact ⟨s.buffer, by simp [keepRest], h1, by simp⟩
  | cons x xs ih =>
    intro s h1 h2
    simp only [List.length_cons] at h2
    unfold keepRest
    have hlt : s.bufferSize < 64 := by omega
    simp only [wr, h1, if_pos hlt]
    obtain ⟨b', e1, e2, e3⟩ :=
      ih { s with buffer := s.buffer.set s.bufferSize x, bufferSize := s.bufferSize + 1 }
        (by simp [h1]) (by simp only; omega)
    refine ⟨b', ?_, e2, ?_⟩
    · simp only [Option.bind_eq_bind, Option.bind_some]
      rw [e1]
      simp only [List.length_cons]
      congr 2
      omega
    · simp only [List.length_cons]
      simp only at e3
      rw [show s.bufferSize + (xs.length + 1) = s.bufferSize + 1 + xs.length by omega, e3,
          take_set_succ _ _ _ (by omega)]
      simp

/-- State with empty partial buffer. -/
theorem fullBlocks_inv (j : Junk) (k : Nat) : ∀ (data : List Byte) (s : State) (n : Nat) (bs : List Byte),
    data.length ≤ k →
    s.buffer.length = 64 → s.bufferSize = 0 → bs.length = 64 * n →
    toHash s.hash = (blocks bs).foldl compress initialHash → s.numBytes = BitVec.ofNat 64 (64 * n) →
    ∃ s' rest n' bs', fullBlocks j s data = (s', rest) ∧ rest.length < 64 ∧ bs ++ data = bs' ++ rest ∧
      bs'.length = 64 * n' ∧ s'.buffer.length = 64 ∧ s'.bufferSize = 0 ∧
      toHash s'.hash = (blocks bs').foldl compress initialHash ∧
      s'.numBytes = BitVec.ofNat 64 (64 * n') := by
  induction k with
  | zero =>
    intro data s n bs hk h1 h2 h3 h4 h5
    rw [fullBlocks, dif_neg (by omega)]
    exact ⟨s, data, n, bs, rfl, by omega, rfl, h3, h1, h2, h4, h5⟩
  | succ k ih =>
    intro data s n bs hk h1 h2 h3 h4 h5
    rw [fullBlocks]
    by_cases h : 64 ≤ data.length
    · rw [dif_pos h]
      have := ih (data.drop 64)
        { s with hash := processBlock j s.hash (data.take 64), numBytes := s.numBytes + 64 } (n+1)
        (bs ++ data.take 64) (by simp; omega) h1 h2 (by simp; omega)
        (by
          simp only
          rw [processBlock_eq, h4, blocks_append n _ _ h3, blocks_one (data.take 64) (by simp; omega)]
          simp)
        (by
          simp only
          rw [h5, show 64 * (n+1) = 64*n + 64 by omega, BitVec.ofNat_add]; rfl)
      obtain ⟨s', rest, n', bs', e1, e2, e3, e4⟩ := this
      refine ⟨s', rest, n', bs', e1, e2, ?_, e4⟩
      rw [← e3]; simp
    · rw [dif_neg h]
      exact ⟨s, data, n, bs, rfl, by omega, rfl, h3, h1, h2, h4, h5⟩

/-- Second half of `add`: the partial buffer is empty. -/
theorem tail_inv (j : Junk) (s : State) (data : List Byte) (n : Nat) (bs : List Byte)
    (h1 : s.buffer.length = 64) (h2 : s.bufferSize = 0) (h3 : bs.length = 64 * n)
    (h4 : toHash s.hash = (blocks bs).foldl compress initialHash)
    (h5 : s.numBytes = BitVec.ofNat 64 (64 * n)) :
    ∃ s', (if data.length = 0 then some s else keepRest (fullBlocks j s data).1 (fullBlocks j s data).2) = some s' ∧
      Inv s' (bs ++ data) := by
  by_cases h0 : data.length = 0
  · rw [if_pos h0]
    have : data = [] := List.eq_nil_of_length_eq_zero h0
    subst this
    exact ⟨s, rfl, h1, n, bs, [], by simp, h3, by simp, by simp [h2], by simp [h2], h4, h5⟩
  · rw [if_neg h0]
    obtain ⟨s', rest, n', bs', e1, e2, e3, e4, e5, e6, e7, e8⟩ :=
      fullBlocks_inv j data.length data s n bs (Nat.le_refl _) h1 h2 h3 h4 h5
    rw [e1]
    obtain ⟨b', k1, k2, k3⟩ := keepRest_eq rest s' e5 (by omega)
    refine ⟨_, k1, ⟨k2, n', bs', rest, e3, e4, e2, ?_, ?_, e7, e8⟩⟩
    · simp [e6]
    · simp only
      rw [k3]; simp [e6]

theorem add_inv (j : Junk) (s : State) (m data : List Byte) (h : Inv s m) :
    ∃ s', add j s data = some s' ∧ Inv s' (m ++ data) := by
  obtain ⟨hb, n, bs, rest, e1, e2, e3, e4, e5, e6, e7⟩ := h
  unfold add
  by_cases hpos : 0 < s.bufferSize
  · simp only [if_pos hpos]
    obtain ⟨b', f1, f2, f3⟩ := fillPartial_eq data s hb (by omega)
    rw [f1]
    simp only [Option.bind_eq_bind, Option.bind_some]
    by_cases hfull : s.bufferSize + data.length < 64
    · have hmin : min (64 - s.bufferSize) data.length = data.length := by omega
      rw [hmin] at f3 ⊢
      have hne : s.bufferSize + data.length ≠ 64 := by omega
      simp only [if_neg hne, List.drop_length, List.length_nil, if_true]
      refine ⟨_, rfl, f2, n, bs, rest ++ data, ?_, e2, ?_, ?_, ?_, e6, e7⟩
      · rw [e1]; simp
      · simp; omega
      · simp [e4]
      · simp only
        rw [f3, e5]; simp
    · have hmin : min (64 - s.bufferSize) data.length = 64 - s.bufferSize := by omega
      rw [hmin] at f3 ⊢
      have h64 : s.bufferSize + (64 - s.bufferSize) = 64 := by omega
      rw [h64] at f3 ⊢
      simp only [if_true]
      have hb' : b' = rest ++ data.take (64 - s.bufferSize) := by
        rw [← e5, ← f3, List.take_of_length_le (by omega)]
      have := tail_inv j
        { s with hash := processBlock j s.hash b', buffer := b', bufferSize := 0, numBytes := s.numBytes + 64 }
        (data.drop (64 - s.bufferSize)) (n+1) (bs ++ b') f2 rfl (by simp; omega)
        (by
          simp only
          rw [processBlock_eq, e6, blocks_append n _ _ e2, blocks_one b' f2]
          simp)
        (by
          simp only
          rw [e7, show 64 * (n+1) = 64*n + 64 by omega, BitVec.ofNat_add]; rfl)
      obtain ⟨s', g1, g2⟩ := this
      refine ⟨s', g1, ?_⟩
      have : m ++ data = bs ++ b' ++ data.drop (64 - s.bufferSize) := by
        rw [e1, hb']; simp
      rw [this]; exact g2
  · have h0 : s.bufferSize = 0 := by omega
    have hr : rest = [] := List.eq_nil_of_length_eq_zero (by omega)
    subst hr
    simp only [if_neg hpos, Option.bind_eq_bind, Option.bind_some]
    have hne : s.bufferSize ≠ 64 := by omega
    simp only [if_neg hne]
    have := tail_inv j s data n bs hb h0 e2 e6 e7
    simpa [e1] using this

end Verif.Sha
