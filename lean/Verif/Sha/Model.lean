import Verif.Basic

/-!
# Model of `/repo/src/sha256/sha256.cpp` (class `SHA256`)

The object state is modelled field by field.  Uninitialised stack memory (`words[64]` in
`processBlock`, `extra[64]` in `processBuffer`) is an explicit arbitrary parameter `Junk`.  Array writes
into `m_buffer`/`extra` are checked (`wr`), an out of bounds write is the outcome `none`.
Platform: little endian (`__BYTE_ORDER != __BIG_ENDIAN`), as on x86/ARM.
-/

namespace Verif.Sha

/-- `uint32_t` -/
abbrev W := BitVec 32

/-- Contents of uninitialised stack arrays (sha256.cpp:96 `words[64]`, sha256.cpp:310 `extra[BlockSize]`). -/
structure Junk where
  words : Nat → W
  extra : List Byte

/-- `uint32_t m_hash[8]` (sha256.h) as a record, also used for the eight local registers a..h. -/
structure Regs where
  a : W
  b : W
  c : W
  d : W
  e : W
  f : W
  g : W
  h : W
deriving DecidableEq, Repr

/-- Object state, sha256.h:68-77: `m_numBytes`, `m_bufferSize`, `m_buffer[64]`, `m_hash[8]`. -/
structure State where
  numBytes : BitVec 64
  bufferSize : Nat
  buffer : List Byte
  hash : Regs
deriving DecidableEq, Repr

/-- sha256.cpp:23-37 `SHA256::reset` (does not touch `m_buffer`). -/
def reset (s : State) : State :=
  { s with
    numBytes := 0
    bufferSize := 0
    hash := { a := 0x6a09e667, b := 0xbb67ae85, c := 0x3c6ef372, d := 0xa54ff53a,
              e := 0x510e527f, f := 0x9b05688c, g := 0x1f83d9ab, h := 0x5be0cd19 } }

/-- sha256.cpp:42-45 `rotate`. -/
def rotate (a : W) (c : Nat) : W := (a >>> c) ||| (a <<< (32 - c))

/-- sha256.cpp:47-60 `swap` (the portable branch; `__builtin_bswap32` is the same function). -/
def swap (x : W) : W :=
  (x >>> 24) ||| ((x >>> 8) &&& 0x0000FF00#32) ||| ((x <<< 8) &&& 0x00FF0000#32) ||| (x <<< 24)

/-- sha256.cpp:63-68 `f1`. -/
def f1 (e f g : W) : W :=
  let term1 := rotate e 6 ^^^ rotate e 11 ^^^ rotate e 25
  let term2 := (e &&& f) ^^^ (~~~e &&& g)
  term1 + term2

/-- sha256.cpp:70-75 `f2`. -/
def f2 (a b c : W) : W :=
  let term1 := rotate a 2 ^^^ rotate a 13 ^^^ rotate a 22
  let term2 := ((a ||| b) &&& c) ||| (a &&& b)
  term1 + term2

/-- `input[i]` for `const uint32_t* input = (uint32_t*) data` on a little endian machine
(sha256.cpp:93): byte `4i` is the least significant one. -/
def loadLE (data : List Byte) (i : Nat) : W :=
  (data.getD (4*i+3) 0) ++ (data.getD (4*i+2) 0) ++ (data.getD (4*i+1) 0) ++ (data.getD (4*i) 0)

/-- sha256.cpp:98-103: the first 16 words, big endian.  Entries from 16 on are uninitialised. -/
def words16 (j : Junk) (data : List Byte) : Nat → W :=
  fun i => if i < 16 then swap (loadLE data i) else j.words i

/-- sha256.cpp:127-131 (and the five identical loops below it): body of `for (; i < N; i++)`. -/
def extendOne (words : Nat → W) (i : Nat) : Nat → W :=
  fun k => if k = i then
      words (i-16) +
      (rotate (words (i-15)) 7 ^^^ rotate (words (i-15)) 18 ^^^ (words (i-15) >>> 3)) +
      words (i-7) +
      (rotate (words (i-2)) 17 ^^^ rotate (words (i-2)) 19 ^^^ (words (i-2) >>> 10))
    else words k

/-- sha256.cpp:127 etc.: `for (; i < i0 + n; i++)`, starting at `i = i0`. -/
def extend (words : Nat → W) (i0 : Nat) : Nat → (Nat → W)
  | 0 => words
  | n+1 => extendOne (extend words i0 n) (i0 + n)

/-- sha256.cpp:108-115: one group of eight unrolled rounds.  The eight groups of the source
(lines 108-115, 118-125, 134-141, 150-157, 166-173, 182-189, 198-205, 214-221) are textually identical up
to the constants and word indices, so one function models all of them; `k`, `w` supply these. -/
def eightRounds (k w : Nat → W) (r : Regs) : Regs :=
  let ⟨a, b, c, d, e, f, g, h⟩ := r
  let x := h + f1 e f g + k 0 + w 0; let y := f2 a b c; let d := d + x; let h := x + y
  let x := g + f1 d e f + k 1 + w 1; let y := f2 h a b; let c := c + x; let g := x + y
  let x := f + f1 c d e + k 2 + w 2; let y := f2 g h a; let b := b + x; let f := x + y
  let x := e + f1 b c d + k 3 + w 3; let y := f2 f g h; let a := a + x; let e := x + y
  let x := d + f1 a b c + k 4 + w 4; let y := f2 e f g; let h := h + x; let d := x + y
  let x := c + f1 h a b + k 5 + w 5; let y := f2 d e f; let g := g + x; let c := x + y
  let x := b + f1 g h a + k 6 + w 6; let y := f2 c d e; let f := f + x; let b := x + y
  let x := a + f1 f g h + k 7 + w 7; let y := f2 b c d; let e := e + x; let a := x + y
  ⟨a, b, c, d, e, f, g, h⟩

/-- The 64 literals of sha256.cpp:108-221, in source order. -/
def codeK : List W := [
  0x428a2f98, 0x71374491, 0xb5c0fbcf, 0xe9b5dba5, 0x3956c25b, 0x59f111f1, 0x923f82a4, 0xab1c5ed5,
  0xd807aa98, 0x12835b01, 0x243185be, 0x550c7dc3, 0x72be5d74, 0x80deb1fe, 0x9bdc06a7, 0xc19bf174,
  0xe49b69c1, 0xefbe4786, 0x0fc19dc6, 0x240ca1cc, 0x2de92c6f, 0x4a7484aa, 0x5cb0a9dc, 0x76f988da,
  0x983e5152, 0xa831c66d, 0xb00327c8, 0xbf597fc7, 0xc6e00bf3, 0xd5a79147, 0x06ca6351, 0x14292967,
  0x27b70a85, 0x2e1b2138, 0x4d2c6dfc, 0x53380d13, 0x650a7354, 0x766a0abb, 0x81c2c92e, 0x92722c85,
  0xa2bfe8a1, 0xa81a664b, 0xc24b8b70, 0xc76c51a3, 0xd192e819, 0xd6990624, 0xf40e3585, 0x106aa070,
  0x19a4c116, 0x1e376c08, 0x2748774c, 0x34b0bcb5, 0x391c0cb3, 0x4ed8aa4a, 0x5b9cca4f, 0x682e6ff3,
  0x748f82ee, 0x78a5636f, 0x84c87814, 0x8cc70208, 0x90befffa, 0xa4506ceb, 0xbef9a3f7, 0xc67178f2 ]

/-- The `n`-th group of eight rounds, reading `words[8n..8n+7]`. -/
def group (n : Nat) (words : Nat → W) (r : Regs) : Regs :=
  eightRounds (fun i => codeK.getD (8*n+i) 0) (fun i => words (8*n+i)) r

/-- sha256.cpp:80-237 `SHA256::processBlock` applied to the 64 bytes `data`. -/
def processBlock (j : Junk) (hash : Regs) (data : List Byte) : Regs :=
  let words := words16 j data
  let r := group 0 words hash
  let r := group 1 words r
  let words := extend words 16 8
  let r := group 2 words r
  let words := extend words 24 8
  let r := group 3 words r
  let words := extend words 32 8
  let r := group 4 words r
  let words := extend words 40 8
  let r := group 5 words r
  let words := extend words 48 8
  let r := group 6 words r
  let words := extend words 56 8
  let r := group 7 words r
  { a := hash.a + r.a, b := hash.b + r.b, c := hash.c + r.c, d := hash.d + r.d,
    e := hash.e + r.e, f := hash.f + r.f, g := hash.g + r.g, h := hash.h + r.h }

/-- sha256.cpp:246-251: `while (numBytes > 0 && m_bufferSize < BlockSize)`; returns the state and the
bytes not yet consumed. -/
def fillPartial (s : State) : List Byte → Option (State × List Byte)
  | [] => some (s, [])
  | x :: xs =>
    if s.bufferSize < 64 then do
      let buf ← wr s.buffer s.bufferSize x
      fillPartial { s with buffer := buf, bufferSize := s.bufferSize + 1 } xs
    else some (s, x :: xs)

/-- sha256.cpp:266-272: `while (numBytes >= BlockSize)`. -/
def fullBlocks (j : Junk) (s : State) (data : List Byte) : State × List Byte :=
  if _h : 64 ≤ data.length then
    fullBlocks j { s with hash := processBlock j s.hash (data.take 64), numBytes := s.numBytes + 64 }
      (data.drop 64)
  else (s, data)
termination_by data.length
decreasing_by simp; omega

/-- sha256.cpp:275-279: `while (numBytes > 0)`, keep the remaining bytes. -/
def keepRest (s : State) : List Byte → Option State
  | [] => some s
  | x :: xs => do
    let buf ← wr s.buffer s.bufferSize x
    keepRest { s with buffer := buf, bufferSize := s.bufferSize + 1 } xs

/-- sha256.cpp:241-281 `SHA256::add`. -/
def add (j : Junk) (s : State) (data : List Byte) : Option State := do
  let (s, data) ← if 0 < s.bufferSize then fillPartial s data else some (s, data)
  let s := if s.bufferSize = 64 then
      { s with hash := processBlock j s.hash s.buffer, numBytes := s.numBytes + 64, bufferSize := 0 }
    else s
  if data.length = 0 then some s
  else
    let (s, data) := fullBlocks j s data
    keepRest s data

/-- Sequence of writes `p[pos..] = bytes`. -/
def wrAll (buf : List Byte) (pos : Nat) : List Byte → Option (List Byte)
  | [] => some buf
  | b :: bs => do
    let buf ← wr buf pos b
    wrAll buf (pos+1) bs

/-- sha256.cpp:294-306: `paddedLength` in bytes (no overflow, `m_bufferSize` is at most 64). -/
def paddedLength (bufferSize : Nat) : Nat :=
  let p := bufferSize * 8
  let p := p + 1
  let lower := p % 512        -- `p & 511`
  let p := if lower ≤ 448 then p + (448 - lower) else p + (512 + 448 - lower)
  p / 8

/-- sha256.cpp:330-337: the eight bytes of `msgBits`, most significant first. -/
def be64 (m : BitVec 64) : List Byte :=
  [(m >>> 56).setWidth 8, (m >>> 48).setWidth 8, (m >>> 40).setWidth 8, (m >>> 32).setWidth 8,
   (m >>> 24).setWidth 8, (m >>> 16).setWidth 8, (m >>> 8).setWidth 8, m.setWidth 8]

/-- sha256.cpp:285-347 `SHA256::processBuffer`. -/
def processBuffer (j : Junk) (s : State) : Option State := do
  let pl := paddedLength s.bufferSize
  -- 313-316
  let (buf, extra) ←
    if s.bufferSize < 64 then (do let b ← wr s.buffer s.bufferSize 128; some (b, j.extra))
    else (do let e ← wr j.extra 0 128; some (s.buffer, e))
  -- 318-320 `for (i = m_bufferSize + 1; i < BlockSize; i++) m_buffer[i] = 0;`
  let buf ← wrAll buf (s.bufferSize + 1) (List.replicate (64 - (s.bufferSize + 1)) 0)
  -- 321-322 `for (; i < paddedLength; i++) extra[i - BlockSize] = 0;`
  let i := max (s.bufferSize + 1) 64
  let extra ← wrAll extra (i - 64) (List.replicate (pl - i) 0)
  -- 325-337
  let msgBits : BitVec 64 := 8 * (s.numBytes + BitVec.ofNat 64 s.bufferSize)
  let (buf, extra) ←
    if pl < 64 then (do let b ← wrAll buf pl (be64 msgBits); some (b, extra))
    else (do let e ← wrAll extra (pl - 64) (be64 msgBits); some (buf, e))
  -- 340-343
  let h := processBlock j s.hash buf
  let h := if 64 < pl then processBlock j h extra else h
  some { s with buffer := buf, hash := h }

/-- sha256.cpp:385-388: four bytes of one hash word. -/
def be32 (x : W) : List Byte :=
  [(x >>> 24).setWidth 8, (x >>> 16).setWidth 8, (x >>> 8).setWidth 8, x.setWidth 8]

/-- sha256.cpp:372-393 `SHA256::getHash(unsigned char buffer[32])`: returns the digest and the state
afterwards (hash words restored, `m_buffer` keeps the padding). -/
def getHashRaw (j : Junk) (s : State) : Option (List Byte × State) := do
  let old := s.hash
  let s' ← processBuffer j s
  let m := s'.hash
  some (be32 m.a ++ be32 m.b ++ be32 m.c ++ be32 m.d ++ be32 m.e ++ be32 m.f ++ be32 m.g ++ be32 m.h,
        { s' with hash := old })

/-- sha256.cpp:362 `dec2hex`. -/
def dec2hex (x : Byte) : Char :=
  ("0123456789abcdef".toList).getD x.toNat ' '

/-- sha256.cpp:351-368 `SHA256::getHash()` text form. -/
def toHexText (raw : List Byte) : List Char :=
  raw.flatMap fun (b : Byte) => [dec2hex ((b >>> 4) &&& 15), dec2hex (b &&& 15)]

/-- sha256.cpp:351-368. -/
def getHash (j : Junk) (s : State) : Option (List Char × State) := do
  let (raw, s) ← getHashRaw j s
  some (toHexText raw, s)

/-- sha256.cpp:397-411 `SHA256::operator()`. -/
def call (j : Junk) (s : State) (data : List Byte) : Option (List Char × State) := do
  let s ← add j (reset s) data
  getHash j s

/-- One use of a hash object; `Junk` is the stack content seen by that call. -/
inductive Op where
  | add (j : Junk) (data : List Byte)
  | getHash (j : Junk)

/-- Run a history of calls, collecting the digests returned by `getHash`; `none` = memory error. -/
def run (s : State) : List Op → Option (List (List Byte))
  | [] => some []
  | .add j data :: ops => do
    let s ← add j s data
    run s ops
  | .getHash j :: ops => do
    let (d, s) ← getHashRaw j s
    let ds ← run s ops
    some (d :: ds)

end Verif.Sha
