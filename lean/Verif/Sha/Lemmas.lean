import Verif.Sha.Model
import Verif.Sha.Spec

/-! Helper lemmas for the SHA-256 refinement. -/

namespace Verif.Sha
open Verif.Fips

def toHash (r : Regs) : Hash := ⟨r.a, r.b, r.c, r.d, r.e, r.f, r.g, r.h⟩

theorem rotate_eq (x : W) (n : Nat) (h : n < 32) : rotate x n = ROTR n x := by
  unfold rotate ROTR BitVec.rotateRight BitVec.rotateRightAux
  rw [Nat.mod_eq_of_lt h]

theorem maj_eq (a b c : W) : ((a ||| b) &&& c) ||| (a &&& b) = Maj a b c := by
  unfold Maj
  ext i hi
  simp only [BitVec.getElem_or, BitVec.getElem_and, BitVec.getElem_xor]
  cases a[i] <;> cases b[i] <;> cases c[i] <;> rfl

theorem f1_eq (e f g : W) : f1 e f g = Sigma1 e + Ch e f g := by
  unfold f1 Sigma1 Ch
  simp only [rotate_eq _ 6 (by decide), rotate_eq _ 11 (by decide), rotate_eq _ 25 (by decide)]

theorem f2_eq (a b c : W) : f2 a b c = Sigma0 a + Maj a b c := by
  unfold f2 Sigma0
  simp only [rotate_eq _ 2 (by decide), rotate_eq _ 13 (by decide), rotate_eq _ 22 (by decide), maj_eq]

theorem swap_append (b3 b2 b1 b0 : Byte) :
    swap (b3 ++ b2 ++ b1 ++ b0 : BitVec 32) = (b0 ++ b1 ++ b2 ++ b3 : BitVec 32) := by
  apply BitVec.eq_of_getLsbD_eq
  intro i hi
  unfold swap
  simp only [BitVec.getLsbD_or, BitVec.getLsbD_and, BitVec.getLsbD_ushiftRight, BitVec.getLsbD_shiftLeft,
    BitVec.getLsbD_append]
  rcases i with _|_|_|_|_|_|_|_|_|_|_|_|_|_|_|_|_|_|_|_|_|_|_|_|_|_|_|_|_|_|_|_|i <;>
    first
    | (exfalso; omega)
    | simp [BitVec.getLsbD_of_ge]

theorem words16_eq (j : Junk) (data : List Byte) (i : Nat) (h : i < 16) :
    words16 j data i = blockWord data i := by
  unfold words16 loadLE blockWord
  rw [if_pos h, swap_append]

theorem sched_ge (block : List Byte) (t : Nat) (h : 16 ≤ t) :
    schedule block t = sigma1 (schedule block (t-2)) + schedule block (t-7) +
      sigma0 (schedule block (t-15)) + schedule block (t-16) := by
  rw [schedule, if_neg (by omega)]

theorem sched_lt (block : List Byte) (t : Nat) (h : t < 16) : schedule block t = blockWord block t := by
  rw [schedule, if_pos h]

theorem extendOne_eq (block : List Byte) (ws : Nat → W) (i : Nat) (hi : 16 ≤ i)
    (h : ∀ k < i, ws k = schedule block k) : ∀ k < i+1, extendOne ws i k = schedule block k := by
  intro k hk
  unfold extendOne
  split
  · subst k
    rw [sched_ge _ _ hi, h _ (by omega), h _ (by omega), h _ (by omega), h _ (by omega)]
    unfold sigma0 sigma1 SHR
    simp only [rotate_eq _ 7 (by decide), rotate_eq _ 18 (by decide), rotate_eq _ 17 (by decide),
      rotate_eq _ 19 (by decide)]
    ac_rfl
  · exact h k (by omega)

theorem extend_eq (block : List Byte) (ws : Nat → W) (i0 : Nat) (hi : 16 ≤ i0)
    (h : ∀ k < i0, ws k = schedule block k) (n : Nat) :
    ∀ k < i0 + n, extend ws i0 n k = schedule block k := by
  induction n with
  | zero => simpa [extend] using h
  | succ n ih =>
    unfold extend
    exact extendOne_eq block _ (i0+n) (by omega) ih

/-- One line of the unrolled code, with registers given in the rotated order. -/
def codeRound (k w : W) (v : Hash) : Hash :=
  ⟨v.h + f1 v.e v.f v.g + k + w + f2 v.a v.b v.c, v.a, v.b, v.c,
   v.d + (v.h + f1 v.e v.f v.g + k + w), v.e, v.f, v.g⟩

theorem codeRound_eq (k w : W) (v : Hash) : codeRound k w v = round k w v := by
  unfold codeRound round
  simp only [f1_eq, f2_eq, BitVec.add_assoc]

theorem eightRounds_code (k w : Nat → W) (r : Regs) :
    toHash (eightRounds k w r) =
      codeRound (k 7) (w 7) (codeRound (k 6) (w 6) (codeRound (k 5) (w 5) (codeRound (k 4) (w 4)
      (codeRound (k 3) (w 3) (codeRound (k 2) (w 2) (codeRound (k 1) (w 1) (codeRound (k 0) (w 0)
      (toHash r)))))))) := by
  rfl

theorem codeK_eq : ∀ t < 64, codeK.getD t 0 = K t := by decide +kernel

theorem group_eq (block : List Byte) (ws : Nat → W) (n : Nat) (hn : n < 8)
    (h : ∀ k < 8*n+8, ws k = schedule block k) (r : Regs) (v : Hash)
    (hv : toHash r = rounds block (8*n) v) :
    toHash (group n ws r) = rounds block (8*(n+1)) v := by
  unfold group
  rw [eightRounds_code]
  simp only [codeRound_eq, hv]
  rw [show 8*(n+1) = 8*n+7+1 by omega]
  simp only [rounds]
  rw [codeK_eq _ (by omega), codeK_eq _ (by omega), codeK_eq _ (by omega), codeK_eq _ (by omega),
    codeK_eq _ (by omega), codeK_eq _ (by omega), codeK_eq _ (by omega), codeK_eq _ (by omega),
    h _ (by omega), h _ (by omega), h _ (by omega), h _ (by omega),
    h _ (by omega), h _ (by omega), h _ (by omega), h _ (by omega)]
  rfl

theorem processBlock_eq (j : Junk) (hash : Regs) (data : List Byte) :
    toHash (processBlock j hash data) = compress (toHash hash) data := by
  have w0 : ∀ k < 16, words16 j data k = schedule data k := by
    intro k hk; rw [words16_eq _ _ _ hk, sched_lt _ _ hk]
  have w1 := extend_eq data _ 16 (by omega) w0 8
  have w2 := extend_eq data _ 24 (by omega) w1 8
  have w3 := extend_eq data _ 32 (by omega) w2 8
  have w4 := extend_eq data _ 40 (by omega) w3 8
  have w5 := extend_eq data _ 48 (by omega) w4 8
  have w6 := extend_eq data _ 56 (by omega) w5 8
  have g0 := group_eq data _ 0 (by omega) (fun k hk => w0 k (by omega)) hash (toHash hash) rfl
  have g1 := group_eq data _ 1 (by omega) w0 _ _ g0
  have g2 := group_eq data _ 2 (by omega) w1 _ _ g1
  have g3 := group_eq data _ 3 (by omega) w2 _ _ g2
  have g4 := group_eq data _ 4 (by omega) w3 _ _ g3
  have g5 := group_eq data _ 5 (by omega) w4 _ _ g4
  have g6 := group_eq data _ 6 (by omega) w5 _ _ g5
  have g7 := group_eq data _ 7 (by omega) w6 _ _ g6
  unfold compress
  rw [show (64:Nat) = 8*(7+1) by omega, ← g7]
  rfl

end Verif.Sha
