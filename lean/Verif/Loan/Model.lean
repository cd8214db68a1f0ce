import Verif.Xchg.JsonMessage

/-!
# Model: the memory and the files that carry the data of MVR-xchange answers

`/repo/src/mvrxchange/mvrxchange_message.cpp`, `mvrxchange_session.cpp` and `CMVRxchangeService.cpp:210-278`.  What is in a
message apart from the file is as in `Verif/Xchg`; here are the two ways to hand over a file (`BufferToFile`, `PathToFile`)
and the memory behind the first.

Simplifications: the heap has the blocks that carry files, each with its content; an address is never given out twice, so that
a block that has been released can be told from every later one; `new` does not fail.  The application runs when it is called
and not at the same time as the library.
-/

namespace Verif.Loan

open Verif.Xchg

abbrev Byte := BitVec 8
abbrev Ptr := Nat

/-- The memory: the content of the blocks that have been allocated and not released; the next address. -/
structure Heap where
  live : Ptr → Option (List Byte)
  next : Ptr

/-- How a call goes wrong. -/
inductive Bad
  | freed               -- `delete[]` of a block that is not allocated (any more)
  | stale               -- reading a block that is not allocated (any more), or behind its end
  | trouble (t : Trouble)  -- an exception or undefined behaviour that has nothing to do with this memory
  | outside             -- the text has a number that is outside the model (`toExternal`)
deriving DecidableEq

def put (f : Ptr → Option (List Byte)) (p : Ptr) (v : Option (List Byte)) : Ptr → Option (List Byte) :=
  fun q => if q = p then v else f q

/-- `new char[n]` and filling it. -/
def Heap.alloc (h : Heap) (b : List Byte) : Heap × Ptr :=
  ({ live := put h.live h.next (some b), next := h.next + 1 }, h.next)

/-- `delete[] p`; nothing happens for the null pointer. -/
def Heap.delete (h : Heap) : Option Ptr → Except Bad Heap
  | none => .ok h
  | some p => match h.live p with
    | some _ => .ok { h with live := put h.live p none }
    | none => .error .freed

/-- `memcpy` of `n` bytes from the block. -/
def Heap.read (h : Heap) (p : Ptr) (n : Nat) : Except Bad (List Byte) :=
  match h.live p with
  | some b => if n ≤ b.length then .ok (b.take n) else .error .stale
  | none => .error .stale

/-- IMediaRessourceVectorInterface.h:1966-1989 `IMVRxchangeMessage`: `msg` has the fields that `Verif/Xchg` models (its file is
not used here), then `PathToFile`, `BufferToFile` and `BufferToFileLength`. -/
structure ExtMsg where
  msg : Msg
  path : List Byte
  buffer : Option Ptr
  length : Nat

/-- A file as `fread` sees it: the bytes it has, and how many of them can be read before an error. -/
structure OnDisk where
  content : List Byte
  readable : Nat

/-- The disk; `none`: `fopen` fails. -/
abbrev Disk := List Byte → Option OnDisk

/-- mvrxchange_message.cpp:287-296 with RawOSFileimpl.cpp:21-99: what `Open`, `GetFileSize` and `Read` return is not looked at.
Without a file `fBodyLength` stays 0 (mvrxchange_message.cpp:36); `Read` succeeds when `fread` gives less than asked for and
sets the length to what it got (RawOSFileimpl.cpp:90-94). -/
def readPath (d : Disk) (path : List Byte) : List Byte :=
  match d path with
  | none => []
  | some f => f.content.take f.readable

/-- mvrxchange_message.cpp:192-315 `FromExternalMessage`: the type and the body of the packet.  Line 270 throws without a type;
276: an answer to a request that is "OK" carries a file, from the buffer if there is one (278-284, which releases the buffer),
else from the disk (285-297); all other messages are text (303-312) and leave the buffer alone. -/
def fromExternalMessage (d : Disk) (h : Heap) (m : ExtMsg) : Except Bad (Heap × (Nat × List Byte)) :=
  match m.msg with
  | .requestRet true _ _ =>
    match m.buffer with
    | some p => do
      let b ← h.read p m.length
      let h ← h.delete (some p)
      .ok (h, (1, b))
    | none => .ok (h, (1, readPath d m.path))
  | _ =>
    match fromExternal m.msg with
    | .ok r => .ok (h, r)
    | .error t => .error (.trouble t)

/-- mvrxchange_message.cpp:437-508 `ToExternalMessage`: the message and, for a file (481-486), a new block with its content. -/
def toExternalMessage (h : Heap) (type : Nat) (body : List Byte) : Except Bad (Heap × (Got × Option Ptr)) :=
  match toExternal type body with
  | none => .error .outside
  | some (.error t) => .error (.trouble t)
  | some (.ok g) =>
    if type = 1 ∧ body ≠ [] then .ok ((h.alloc body).1, (g, some (h.alloc body).2))
    else .ok (h, (g, none))

/-- The application behind `IncomingCallback` (CMVRxchangeService.cpp:352-355): from the memory, the message and its
`BufferToFile` to the memory and the answer. -/
abbrev App := Heap → Got → Option Ptr → Heap × ExtMsg

/-- mvrxchange_session.cpp:39-51, for a packet that has arrived: the message is given to the application (46), its buffer is
released (47), then the answer becomes a packet (49-50).  Result: what the application was given and the packet. -/
def serveOne (d : Disk) (app : App) (h : Heap) (type : Nat) (body : List Byte) :
    Except Bad (Heap × (Got × (Nat × List Byte))) := do
  let (h, (g, p)) ← toExternalMessage h type body
  let (h, a) := app h g p
  let h ← h.delete p
  let (h, reply) ← fromExternalMessage d h a
  .ok (h, (g, reply))

/-- A packet that arrives, with the disk and the application (which may have a state) at that time. -/
structure Request where
  type : Nat
  body : List Byte
  disk : Disk
  app : App

/-- Packets one after the other: mvrxchange_session.cpp:39-51 for each. -/
def serveAll (h : Heap) : List Request → Except Bad (Heap × List (Got × (Nat × List Byte)))
  | [] => .ok (h, [])
  | r :: rs => do
    let (h, one) ← serveOne r.disk r.app h r.type r.body
    let (h, more) ← serveAll h rs
    .ok (h, one :: more)

/-- CMVRxchangeService.cpp:261-273: the answers that have come back, as the callback sees them: the message and the content of
its buffer.  The buffer is released after the call (269). -/
def returned (h : Heap) : List (Nat × List Byte) → Except Bad (Heap × List (Got × Option (List Byte)))
  | [] => .ok (h, [])
  | (type, body) :: rest => do
    let (h, (g, p)) ← toExternalMessage h type body
    let seen := p.bind h.live
    let h ← h.delete p
    let (h, more) ← returned h rest
    .ok (h, (g, seen) :: more)

/-- CMVRxchangeService.cpp:234-277 `Send_message`: the packet (237-238), the answers (261-273), and the buffer of the message is
released (275). -/
def sendMessage (d : Disk) (h : Heap) (m : ExtMsg) (answers : List (Nat × List Byte)) :
    Except Bad (Heap × ((Nat × List Byte) × List (Got × Option (List Byte)))) := do
  let (h, packet) ← fromExternalMessage d h m
  let (h, seen) ← returned h answers
  let h ← h.delete m.buffer
  .ok (h, (packet, seen))

end Verif.Loan
