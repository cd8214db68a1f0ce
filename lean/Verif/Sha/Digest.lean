import Verif.Sha.Stream

/-! The final padding and the digest. -/

namespace Verif.Sha
open Verif.Fips

theorem wrAll_eq (bs : List Byte) : ∀ (buf : List Byte) (pos : Nat), pos + bs.length ≤ buf.length →
    wrAll buf pos bs = some (buf.take pos ++ bs ++ buf.drop (pos + bs.length)) := by
  induction bs with
  | nil => intro buf pos h; simp [wrAll]
  | cons b bs ih =>
    intro buf pos h
    simp only [List.length_cons] at h
    unfold wrAll wr
    rw [if_pos (by omega)]
    simp only [Option.bind_eq_bind, Option.bind_some]
    rw [ih _ _ (by simp; omega), take_set_succ _ _ _ (by omega)]
    rw [List.drop_set_of_lt (by omega)]
    simp only [List.append_assoc, List.cons_append, List.nil_append, List.length_cons]
    rw [show pos + 1 + bs.length = pos + (bs.length + 1) by omega]

theorem paddedLength_lo (r : Nat) (h : r ≤ 55) : paddedLength r = 56 := by
  unfold paddedLength
  simp only
  rw [Nat.mod_eq_of_lt (by omega), if_pos (by omega)]
  omega

theorem paddedLength_hi (r : Nat) (h : 56 ≤ r) (h' : r < 64) : paddedLength r = 120 := by
  unfold paddedLength
  simp only
  rw [Nat.mod_eq_of_lt (by omega), if_neg (by omega)]
  omega

theorem be64_eq (x : Nat) : be64 (BitVec.ofNat 64 x) = bigEndian 8 x := by
  unfold be64
  simp only [bigEndian]
  congr 1
  · apply BitVec.eq_of_toNat_eq
    simp [Nat.shiftRight_eq_div_pow]; omega
  congr 1
  · apply BitVec.eq_of_toNat_eq
    simp [Nat.shiftRight_eq_div_pow]; omega
  congr 1
  · apply BitVec.eq_of_toNat_eq
    simp [Nat.shiftRight_eq_div_pow]; omega
  congr 1
  · apply BitVec.eq_of_toNat_eq
    simp [Nat.shiftRight_eq_div_pow]; omega
  congr 1
  · apply BitVec.eq_of_toNat_eq
    simp [Nat.shiftRight_eq_div_pow]; omega
  congr 1
  · apply BitVec.eq_of_toNat_eq
    simp [Nat.shiftRight_eq_div_pow]; omega
  congr 1
  · apply BitVec.eq_of_toNat_eq
    simp [Nat.shiftRight_eq_div_pow]; omega
  congr 1
  apply BitVec.eq_of_toNat_eq
  simp

theorem be32_eq (x : W) : be32 x = wordBytes x := by
  unfold be32 wordBytes
  simp only [bigEndian]
  have := x.isLt
  congr 1
  · apply BitVec.eq_of_toNat_eq
    simp [Nat.shiftRight_eq_div_pow]
  congr 1
  · apply BitVec.eq_of_toNat_eq
    simp [Nat.shiftRight_eq_div_pow]
  congr 1
  · apply BitVec.eq_of_toNat_eq
    simp [Nat.shiftRight_eq_div_pow]
  congr 1
  apply BitVec.eq_of_toNat_eq
  simp

theorem bigEndian_length (n x : Nat) : (bigEndian n x).length = n := by
  induction n with
  | zero => rfl
  | succ n ih => simp [bigEndian, ih]

theorem bits_eq (n r : Nat) :
    (8 : BitVec 64) * (BitVec.ofNat 64 (64 * n) + BitVec.ofNat 64 r) = BitVec.ofNat 64 (8 * (64 * n + r)) := by
  rw [← BitVec.ofNat_add]
  change BitVec.ofNat 64 8 * _ = _
  rw [← BitVec.ofNat_mul]

theorem processBuffer_inv (j : Junk) (hj : j.extra.length = 64) (s : State) (m : List Byte) (h : Inv s m) :
    ∃ s', processBuffer j s = some s' ∧ toHash s'.hash = hashOf m ∧
      s'.buffer.length = 64 ∧ s'.buffer.take s.bufferSize = s.buffer.take s.bufferSize ∧
      s'.bufferSize = s.bufferSize ∧ s'.numBytes = s.numBytes := by
  obtain ⟨hb, n, bs, rest, e1, e2, e3, e4, e5, e6, e7⟩ := h
  unfold processBuffer
  have hr : s.bufferSize < 64 := by omega
  simp only [if_pos hr, wr, hb, Option.bind_eq_bind, Option.bind_some]
  have hml : m.length = 64 * n + rest.length := by rw [e1]; simp [e2]
  have hmod : m.length % 64 = rest.length := by rw [hml]; omega
  -- the buffer after writing the marker
  have hset : s.buffer.set s.bufferSize 128 =
      rest ++ 128#8 :: s.buffer.drop (s.bufferSize + 1) := by
    rw [List.set_eq_take_append_cons_drop, if_pos (by omega), e5]
    rfl
  have hd : (s.buffer.drop (s.bufferSize + 1)).length = 63 - rest.length := by simp [hb]; omega
  rw [wrAll_eq _ _ _ (by simp [hb]; omega)]
  simp only [Option.bind_some]
  have hz : (s.buffer.set s.bufferSize 128).take (s.bufferSize + 1) = rest ++ [128#8] := by
    rw [take_set_succ _ _ _ (by omega), e5]; rfl
  have hbuf : (s.buffer.set s.bufferSize 128).take (s.bufferSize + 1) ++
      List.replicate (64 - (s.bufferSize + 1)) 0 ++
      (s.buffer.set s.bufferSize 128).drop (s.bufferSize + 1 +
        (List.replicate (64 - (s.bufferSize + 1)) (0 : Byte)).length) =
      rest ++ 128#8 :: List.replicate (63 - rest.length) 0#8 := by
    rw [hz, List.drop_of_length_le (by simp [hb]; omega)]
    simp only [List.append_assoc, List.append_nil, e4, List.singleton_append]
    rw [show 64 - (rest.length + 1) = 63 - rest.length by omega]
    rfl
  rw [hbuf]
  have hmax : max (s.bufferSize + 1) 64 = 64 := by omega
  rw [hmax]
  have hmsg : (8 : BitVec 64) * (s.numBytes + BitVec.ofNat 64 s.bufferSize) =
      BitVec.ofNat 64 (8 * m.length) := by
    rw [e7, e4, bits_eq, hml]
  by_cases hlo : rest.length ≤ 55
  · rw [paddedLength_lo _ (by omega)]
    simp only [wrAll, List.replicate, Nat.reduceSub, Nat.reduceLT, if_true, Option.bind_some]
    have h56 : (rest ++ 128#8 :: List.replicate (63 - rest.length) 0#8).take 56 =
        rest ++ 128#8 :: List.replicate (55 - rest.length) 0#8 := by
      rw [List.take_append, List.take_of_length_le (by omega)]
      rw [show 56 - rest.length = (55 - rest.length) + 1 by omega, List.take_succ_cons,
        List.take_replicate, Nat.min_eq_left (by omega)]
    rw [wrAll_eq _ _ _ (by simp [be64]; omega)]
    simp only [Option.bind_some]
    rw [hmsg, be64_eq, h56]
    rw [List.drop_of_length_le (by simp [bigEndian_length]; omega)]
    simp only [List.append_nil]
    refine ⟨_, rfl, ?_, ?_, ?_, rfl, rfl⟩
    · simp only
      rw [if_neg (by decide), processBlock_eq, e6]
      unfold hashOf pad
      rw [hmod, show (64 + 55 - rest.length) % 64 = 55 - rest.length by omega]
      conv => rhs; rw [e1]
      rw [show bs ++ rest ++ 0x80#8 :: List.replicate (55 - rest.length) 0#8 ++ bigEndian 8 (8 * (bs ++ rest).length)
        = bs ++ (rest ++ 128#8 :: List.replicate (55 - rest.length) 0#8 ++ bigEndian 8 (8 * (bs ++ rest).length)) by simp]
      rw [blocks_append n _ _ e2, blocks_one (rest ++ _ ++ _) (by
        simp only [List.length_append, List.length_cons, List.length_replicate, bigEndian_length]; omega)]
      simp only [List.foldl_append, List.foldl_cons, List.foldl_nil, e1]
    · simp [bigEndian_length]; omega
    · simp only
      rw [e5, e4, List.append_assoc, List.take_append_of_le_length (Nat.le_refl _), List.take_length]
  · rw [paddedLength_hi _ (by omega) (by omega)]
    simp only [Nat.sub_self, Nat.reduceSub, Nat.reduceLT, if_false]
    rw [wrAll_eq _ _ _ (by simp [hj])]
    simp only [Option.bind_some]
    rw [wrAll_eq _ _ _ (by simp [hj, be64])]
    simp only [Option.bind_some]
    rw [hmsg, be64_eq]
    have hx : (List.take 56 (List.take 0 j.extra ++ List.replicate 56 0 ++
        List.drop (0 + (List.replicate 56 (0 : Byte)).length) j.extra) ++ bigEndian 8 (8 * m.length) ++
        List.drop (56 + (bigEndian 8 (8 * m.length)).length)
          (List.take 0 j.extra ++ List.replicate 56 0 ++
            List.drop (0 + (List.replicate 56 (0 : Byte)).length) j.extra)) =
        List.replicate 56 0#8 ++ bigEndian 8 (8 * m.length) := by
      generalize hzz : List.replicate 56 (0 : Byte) = z
      have hzl : z.length = 56 := by rw [← hzz, List.length_replicate]
      have hdj : (List.drop (0 + z.length) j.extra).length = 8 := by
        simp only [List.length_drop, hj, hzl]
      generalize List.drop (0 + z.length) j.extra = d at hdj ⊢
      rw [List.take_zero, List.nil_append, List.drop_of_length_le (by
        simp only [List.length_append, bigEndian_length, hzl, hdj]; omega), List.append_nil]
      rw [List.take_append_of_le_length (by omega), List.take_of_length_le (by omega)]
    rw [hx]
    refine ⟨_, rfl, ?_, ?_, ?_, rfl, rfl⟩
    · simp only [Nat.reduceLT, if_true]
      rw [processBlock_eq, processBlock_eq, e6]
      unfold hashOf pad
      rw [hmod, show (64 + 55 - rest.length) % 64 = (63 - rest.length) + 56 by omega,
        ← List.replicate_append_replicate]
      conv => rhs; rw [e1]
      rw [show bs ++ rest ++ 0x80#8 :: (List.replicate (63 - rest.length) 0#8 ++ List.replicate 56 0#8) ++
          bigEndian 8 (8 * (bs ++ rest).length)
        = bs ++ ((rest ++ 128#8 :: List.replicate (63 - rest.length) 0#8) ++
           (List.replicate 56 0#8 ++ bigEndian 8 (8 * (bs ++ rest).length))) by simp]
      generalize hzz : List.replicate 56 0#8 = z
      have hzl : z.length = 56 := by rw [← hzz, List.length_replicate]
      rw [blocks_append n _ _ e2, blocks_append 1 _ _ (by simp; omega),
        blocks_one (rest ++ 128#8 :: _) (by simp; omega), blocks_one (z ++ _) (by simp only [List.length_append, bigEndian_length, hzl])]
      simp only [List.foldl_append, List.foldl_cons, List.foldl_nil, e1]
    · simp; omega
    · simp only
      rw [e5, e4, List.take_append_of_le_length (Nat.le_refl _), List.take_length]

theorem toHash_inj {r r' : Regs} (h : toHash r = toHash r') : r = r' := by
  cases r; cases r'; simpa [toHash] using h

theorem getHashRaw_inv (j : Junk) (hj : j.extra.length = 64) (s : State) (m : List Byte) (h : Inv s m) :
    ∃ s', getHashRaw j s = some (sha256 m, s') ∧ Inv s' m := by
  obtain ⟨t, t1, t2, t3, t4, t5, t6⟩ := processBuffer_inv j hj s m h
  obtain ⟨hb, n, bs, rest, e1, e2, e3, e4, e5, e6, e7⟩ := h
  unfold getHashRaw
  rw [t1]
  refine ⟨{ t with hash := s.hash }, ?_, t3, n, bs, rest, e1, e2, e3, ?_, ?_, e6, ?_⟩
  · simp only [Option.bind_eq_bind, Option.bind_some, be32_eq, sha256, ← t2]
    rfl
  · simp [t5, e4]
  · simp only
    rw [t5, t4, e5]
  · simp [t6, e7]

theorem hexText_eq (raw : List Byte) : toHexText raw = hexText raw := by
  have key : ∀ b : Byte, dec2hex ((b >>> 4) &&& 15) = Nat.digitChar (b.toNat / 16) ∧
      dec2hex (b &&& 15) = Nat.digitChar (b.toNat % 16) := by decide +kernel
  unfold toHexText hexText
  congr 1
  funext b
  rw [(key b).1, (key b).2]

theorem initialHash_eq : (⟨0x6a09e667, 0xbb67ae85, 0x3c6ef372, 0xa54ff53a,
    0x510e527f, 0x9b05688c, 0x1f83d9ab, 0x5be0cd19⟩ : Hash) = initialHash := by decide +kernel

theorem reset_inv (s : State) (h : s.buffer.length = 64) : Inv (reset s) [] :=
  ⟨h, 0, [], [], rfl, rfl, by simp, rfl, by simp [reset], by
    rw [blocks_lt [] (by simp)]
    simp only [List.foldl_nil]
    rw [← initialHash_eq]; rfl, rfl⟩

end Verif.Sha
