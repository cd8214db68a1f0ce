/-!
# Model of the MVR-xchange packet buffer and packet header

`/repo/src/mvrxchange/mvrxchange_dynamic_buffer.cpp`, `/repo/src/mvrxchange/mvrxchange_message.cpp:10-144`.

`size_t` is 64 bits wide, the machine is little endian.  A null pointer is `none`; a block of memory is the list of
its bytes.  Every `memcpy` checks its ranges: going outside a block is the fault `outOfBounds` (undefined behaviour in
C++).  `new char[n]` gives memory with arbitrary contents (`Env.fill`) and throws `badAlloc` above `Env.limit`.
-/

namespace Verif.Xchg

abbrev Byte := BitVec 8

/-- How an operation can go wrong. -/
inductive Fault
  | badAlloc     -- `new` throws, the program goes on with an exception
  | outOfBounds  -- undefined behaviour: memory outside the allocation is read or written
  deriving DecidableEq, Repr

/-- The machine: contents of fresh memory and the size of the largest block `new` can give. -/
structure Env where
  fill : Nat → Byte
  limit : Nat

/-- `new char[n]`. -/
def alloc (e : Env) (n : Nat) : Except Fault (List Byte) :=
  if n > e.limit then .error .badAlloc else .ok ((List.range n).map e.fill)

/-- `memcpy` from a block: `n` bytes at `off`. -/
def read (m : List Byte) (off n : Nat) : Except Fault (List Byte) :=
  if off + n > m.length then .error .outOfBounds else .ok ((m.drop off).take n)

/-- `memcpy` into a block: `d` at `off`. -/
def write (m : List Byte) (off : Nat) (d : List Byte) : Except Fault (List Byte) :=
  if off + d.length > m.length then .error .outOfBounds
  else .ok (m.take off ++ d ++ m.drop (off + d.length))

/-- mvrxchange_dynamic_buffer.h: `fBuffer`, `fBufferSize`, `fAllocatedMemory`.  (The reference count of the copy
constructor is not modelled; packets share the buffer through a `shared_ptr`.) -/
structure Buf where
  mem : Option (List Byte)
  size : Nat
  cap : Nat
  deriving DecidableEq, Repr

/-- mvrxchange_dynamic_buffer.cpp:12-19 constructor. -/
def Buf.empty : Buf := ⟨none, 0, 0⟩

/-- mvrxchange_dynamic_buffer.cpp:62-71 `DisposeBuffer`. -/
def Buf.dispose (_b : Buf) : Buf := ⟨none, 0, 0⟩

/-- mvrxchange_dynamic_buffer.cpp:78-86 `FromBuffer`. -/
def Buf.fromBuffer (e : Env) (b : Buf) (data : List Byte) : Except Fault Buf :=
  if data.length = 0 then .ok b
  else do
    let m ← alloc e data.length
    let m ← write m 0 data
    return ⟨some m, data.length, data.length⟩

/-- mvrxchange_dynamic_buffer.cpp:9 `k_5_MegaByte`, which is 5 * 1024. -/
def extra : Nat := 5 * 1024

/-- mvrxchange_dynamic_buffer.cpp:88-123 `Append`. -/
def Buf.append (e : Env) (b : Buf) (data : List Byte) : Except Fault Buf :=
  if data.length = 0 then .ok b
  else
    let need := (b.size + data.length) % 2 ^ 64
    if b.cap ≥ need then
      match b.mem with
      | none => .error .outOfBounds
      | some m => do
        let m ← write m b.size data
        return { b with mem := some m, size := need }
    else do
      let cap := (need + extra) % 2 ^ 64
      let t ← alloc e cap
      let t ← match b.mem with
        | none => pure t
        | some m => do
          let old ← read m 0 b.size
          write t 0 old
      let t ← write t b.size data
      return ⟨some t, need, cap⟩

/-- mvrxchange_dynamic_buffer.cpp:126-153 `GrowTo`. -/
def Buf.growTo (e : Env) (b : Buf) (size : Nat) : Except Fault Buf :=
  let need := (size + 1) % 2 ^ 64
  if b.cap < need then do
    let t ← alloc e need
    let t ← match b.mem with
      | none => pure t
      | some m => do
        let old ← read m 0 b.size
        write t 0 old
    return ⟨some t, (b.size + size) % 2 ^ 64, need⟩
  else .ok b

/-- mvrxchange_dynamic_buffer.cpp:155-182 `Reserve`: as `GrowTo`, but the size only changes if there was a buffer. -/
def Buf.reserve (e : Env) (b : Buf) (size : Nat) : Except Fault Buf :=
  let need := (size + 1) % 2 ^ 64
  if b.cap < need then do
    let t ← alloc e need
    match b.mem with
      | none => return ⟨some t, b.size, need⟩
      | some m => do
        let old ← read m 0 b.size
        let t ← write t 0 old
        return ⟨some t, (b.size + size) % 2 ^ 64, need⟩
  else .ok b

/-! ### Integers in memory -/

/-- The `n` bytes of an unsigned integer in memory (little endian). -/
def toLE : Nat → Nat → List Byte
  | 0, _ => []
  | n + 1, v => BitVec.ofNat 8 v :: toLE n (v / 256)

/-- The integer whose bytes in memory are these. -/
def ofLE : List Byte → Nat
  | [] => 0
  | b :: bs => b.toNat + 256 * ofLE bs

/-- mvrxchange_message.cpp:10-27 `swap_endian` of an `n`-byte integer: the bytes in reverse order. -/
def swapEndian (n v : Nat) : Nat := ofLE (toLE n v).reverse

/-! ### Packets -/

/-- mvrxchange_prefix.h:39 `kMVR_Package_Flag`. -/
def magic : Nat := 778682

/-- mvrxchange_message.h:14-22: header of 5 four-byte fields and one eight-byte field. -/
def headerLength : Nat := 28

/-- mvrxchange_message.h: the fields of `MVRxchangePacket` (integers below 2^32, the body length below 2^64). -/
structure Packet where
  flag : Nat
  version : Nat
  number : Nat
  count : Nat
  type : Nat
  bodyLength : Nat
  data : Buf
  deriving DecidableEq, Repr

/-- mvrxchange_message.cpp:38: 30 MB. -/
def initialSize : Nat := 30 * 1024 * 1024

/-- mvrxchange_message.cpp:30-39 constructor; `version0` is the uninitialised `fVersion`. -/
def newPacket (e : Env) (version0 : Nat) : Except Fault Packet := do
  let d ← Buf.empty.growTo e initialSize
  return ⟨magic, version0, 0, 0, 0, 0, d⟩

/-- `memcpy` to/from the packet data at an offset; a null buffer is out of bounds. -/
def Packet.read (p : Packet) (off n : Nat) : Except Fault (List Byte) :=
  match p.data.mem with
  | none => .error .outOfBounds
  | some m => Xchg.read m off n

/-- See `Packet.read`. -/
def Packet.write (p : Packet) (off : Nat) (d : List Byte) : Except Fault Packet :=
  match p.data.mem with
  | none => .error .outOfBounds
  | some m => do
    let m ← Xchg.write m off d
    return { p with data := { p.data with mem := some m } }

/-- mvrxchange_message.cpp:87-92 `SetBody` (also 280-282, 310-311: the same two steps). -/
def Packet.setBody (e : Env) (p : Packet) (body : List Byte) : Except Fault Packet := do
  let p := { p with bodyLength := body.length }
  let d ← p.data.growTo e ((headerLength + body.length) % 2 ^ 64)
  Packet.write { p with data := d } headerLength body

/-- mvrxchange_message.cpp:121-144 `EncodeHeader`. -/
def Packet.encodeHeader (p : Packet) : Except Fault Packet := do
  let p ← p.write 0 (toLE 4 (swapEndian 4 p.flag))
  let p ← p.write 4 (toLE 4 (swapEndian 4 p.version))
  let p ← p.write 8 (toLE 4 (swapEndian 4 p.number))
  let p ← p.write 12 (toLE 4 (swapEndian 4 p.count))
  let p ← p.write 16 (toLE 4 (swapEndian 4 p.type))
  p.write 20 (toLE 8 (swapEndian 8 p.bodyLength))

/-- mvrxchange_message.cpp:94-119 `DecodeHeader`. -/
def Packet.decodeHeader (e : Env) (p : Packet) : Except Fault (Bool × Packet) := do
  let flag ← p.read 0 4
  let p := { p with flag := swapEndian 4 (ofLE flag) }
  if p.flag ≠ magic then return (false, p)
  else
    let version ← p.read 4 4
    let number ← p.read 8 4
    let count ← p.read 12 4
    let type ← p.read 16 4
    let len ← p.read 20 8
    let p := { p with
      version := swapEndian 4 (ofLE version), number := swapEndian 4 (ofLE number)
      count := swapEndian 4 (ofLE count), type := swapEndian 4 (ofLE type)
      bodyLength := swapEndian 8 (ofLE len) }
    let d ← p.data.growTo e p.bodyLength
    return (true, { p with data := d })

/-- mvrxchange_message.cpp:67-70 `GetLength`. -/
def Packet.length (p : Packet) : Nat := (headerLength + p.bodyLength) % 2 ^ 64

/-- What is put on the wire for a body: `SetBody`, `EncodeHeader` and writing `GetLength()` bytes of the data
(mvrxchange_client.cpp:80-81, mvrxchange_session.cpp:72). -/
def send (e : Env) (p : Packet) (body : List Byte) : Except Fault (List Byte) := do
  let p ← p.setBody e body
  let p ← p.encodeHeader
  p.read 0 p.length

/-- mvrxchange_session.cpp:29-40: read 28 bytes into a fresh packet, decode them and, if that succeeds, read the
announced number of bytes into the body.  `none` when the header is refused or when the connection delivers fewer
bytes. -/
def receive (e : Env) (version0 : Nat) (wire : List Byte) : Except Fault (Option Packet) := do
  let p ← newPacket e version0
  if wire.length < headerLength then return none
  else
    let p ← p.write 0 (wire.take headerLength)
    let (ok, p) ← p.decodeHeader e
    if !ok then return none
    else
      let rest := wire.drop headerLength
      -- every byte that arrives is stored; only then is it known whether enough arrive
      let p ← p.write headerLength (rest.take p.bodyLength)
      if rest.length < p.bodyLength then return none
      else return some p

/-- mvrxchange_message.cpp:485-486: the body of a received packet. -/
def Packet.body (p : Packet) : Except Fault (List Byte) := p.read headerLength p.bodyLength

end Verif.Xchg
